import Verif.Model.TestRunner
/- What C56 and C64 say: when a test passes. -/
namespace Texted.Spec
open Texted

/-- `part` occurs in `whole`. -/
def Contains (whole part : Bytes) : Prop := ∃ pre post, whole = pre ++ part ++ post

/-- `s` without the parentheses around it: `s` is `core` between runs of parentheses, and `core` neither begins nor ends with one. -/
def InParens (s core : Bytes) : Prop :=
  ∃ pre post : Bytes, s = pre ++ core ++ post ∧ (∀ c ∈ pre, c = 40 ∨ c = 41) ∧ (∀ c ∈ post, c = 40 ∨ c = 41) ∧
    (∀ c, core.head? = some c → c ≠ 40 ∧ c ≠ 41) ∧ (∀ c, core.getLast? = some c → c ≠ 40 ∧ c ≠ 41)

/-- The script of the test is this program (a blank script is the empty program). -/
def TestProgram (t : TestCase) (program : List Value) : Prop :=
  (trimSpace t.input = [] ∧ program = []) ∨ (trimSpace t.input ≠ [] ∧ parseString (trimSpace t.input) = .ok program)

/-- The language in which the expected result is written. -/
def ResultLang (t : TestCase) : Bytes := if t.resultLang = [] then b! "sexp" else t.resultLang

/-- The text, read in this language, is these values: shell lines, JSON, or else s-expressions. -/
def ReadIn (lang s : Bytes) (vs : List Value) : Prop :=
  (lang = b! "shell" ∧ parseString s = .ok vs) ∨ (lang = b! "json" ∧ parseJsonString s = .ok vs) ∨
  (lang ≠ b! "shell" ∧ lang ≠ b! "json" ∧ parseSexp s = .ok vs)

/-- The test expects an error, and the program stops with an error whose message contains the expected one. -/
def FailsAsExpected [Ext] (env : Env) (t : TestCase) (program : List Value) : Prop :=
  trimSpace t.error ≠ [] ∧ ∃ e b core, eval env program (newBuffer t.buffer) = (.err e, b) ∧ InParens (trimSpace t.error) core ∧ Contains e.message core

/-- The test expects no error, the program runs to its end, and what is expected of the text and of the value holds. -/
def SucceedsAsExpected [Ext] (env : Env) (t : TestCase) (program : List Value) : Prop :=
  trimSpace t.error = [] ∧ ∃ v b, eval env program (newBuffer t.buffer) = (.ok v, b) ∧
    (t.output ≠ [] ∨ trimSpace t.result ≠ []) ∧
    (t.output ≠ [] → b.content = t.output) ∧
    (trimSpace t.result ≠ [] → ∃ w, ReadIn (ResultLang t) (trimSpace t.result) [w] ∧ goEqual w v = true)

/-- The test is met. -/
def Met [Ext] (env : Env) (t : TestCase) : Prop :=
  ∃ program, TestProgram t program ∧ (FailsAsExpected env t program ∨ SucceedsAsExpected env t program)

/-- The pattern matches somewhere in the name. -/
def Matches [Ext] (pattern name : Bytes) : Bool :=
  match Ext.compile pattern with
  | .ok re => (re.find name).isSome
  | .error _ => false

/-- The files the command works on: those named (or else those found in tests/), and of these, if there are patterns, the ones whose base name
matches one of them; in the given order. -/
def Selected [Ext] (glob : List Bytes) (a : TestArgs) : List Bytes :=
  let files := if a.testFiles = [] then glob else a.testFiles
  if a.includePatterns = [] then files else files.filter fun f => a.includePatterns.any fun p => Matches p (pathBase f)

/-- The test in this file can be read and is met. -/
def FilePasses [Ext] (load : Bytes → Except Bytes TestCase) (f : Bytes) : Prop := ∃ t, load f = .ok t ∧ Met defaultEnv t

/-- How many of the files pass: `verdicts` has one entry for each file, in order. -/
def Verdicts [Ext] (load : Bytes → Except Bytes TestCase) (files : List Bytes) (verdicts : List Bool) : Prop :=
  verdicts.length = files.length ∧ ∀ (i : Nat) (f : Bytes), files[i]? = some f → (verdicts[i]? = some true ↔ FilePasses load f)

/-- What is shown of a test: its name and the verdict, and if it fails, why. -/
def shownLine (f : Bytes) (error : Option Bytes) : Bytes :=
  match error with
  | none => b! "[PASS] " ++ pathBase f ++ b! "\n"
  | some e => b! "[FAIL] " ++ pathBase f ++ b! "\n" ++ b! "  Error: " ++ e ++ b! "\n"

/-- The last element of a path: what stands behind the last slash, slashes at the end not counted; `/` for a path of slashes only and `.` for
the empty path. -/
def BaseName (p n : Bytes) : Prop :=
  (p = [] ∧ n = b! ".") ∨ (p ≠ [] ∧ (∀ c ∈ p, c = 47) ∧ n = b! "/") ∨
  ∃ dir slashes : Bytes, p = dir ++ n ++ slashes ∧ (dir = [] ∨ dir.getLast? = some 47) ∧ n ≠ [] ∧ 47 ∉ n ∧ ∀ c ∈ slashes, c = 47

mutual
/-- How the runner shows a value: a string between quotes as it is (nothing is escaped), a number as `texted` prints it (C75) except that negative
zero has no sign, a symbol by its name, a list in parentheses. -/
inductive ValueShown [Ext] : Value → Bytes → Prop
  | str {s} : ValueShown (.str s) ([34] ++ s ++ [34])
  | sym {n} : ValueShown (.sym n) n
  | zero {neg} : ValueShown (.num (.fin neg 0 0)) (b! "0")
  | num {x} : (∀ neg, x ≠ .fin neg 0 0) → ValueShown (.num x) (Value.num x).toStr
  | list {l s} : ValuesShown l s → ValueShown (.list l) (b! "(" ++ s ++ b! ")")
/-- Values with a space between them. -/
inductive ValuesShown [Ext] : List Value → Bytes → Prop
  | nil : ValuesShown [] []
  | one {v s} : ValueShown v s → ValuesShown [v] s
  | more {v s w l t} : ValueShown v s → ValuesShown (w :: l) t → ValuesShown (v :: w :: l) (s ++ b! " " ++ t)
end

/-- What is printed for instructions with the buffer after each. -/
inductive TraceLines [Ext] : List (Value × Buffer) → Bytes → Prop
  | nil : TraceLines [] []
  | cons {v : Value} {b : Buffer} {l s t} : ValueShown v s → TraceLines l t → TraceLines ((v, b) :: l)
      (b! "TRACE: Executed instruction: " ++ s ++ b! "\n  Buffer content: " ++ quote b.content ++ b! "\n  Point: " ++ intDec b.point ++
        b! ", Mark: " ++ intDec b.mark ++ b! "\n\n" ++ t)

/-- What the trace of a program started on `b` consists of: the instructions that were carried out, in order, each with the buffer after it. -/
def Steps [Ext] (env : Env) (p : List Value) (b : Buffer) (l : List (Value × Buffer)) : Prop :=
  ∀ (i : Nat) (v : Value) (bi : Buffer), l[i]? = some (v, bi) ↔ p[i]? = some v ∧ ∃ u, eval env (p.take (i + 1)) b = (.ok u, bi)

/-- What `--trace` prints of the test in this file: nothing if there is no program to run, otherwise its steps. -/
def FileTrace [Ext] (load : Bytes → Except Bytes TestCase) (f s : Bytes) : Prop :=
  ((∀ t p, load f = .ok t → ¬ TestProgram t p) ∧ s = []) ∨
  ∃ t p l, load f = .ok t ∧ TestProgram t p ∧ Steps defaultEnv p (newBuffer t.buffer) l ∧ TraceLines l s

/-- The text cannot be read in this language, and the error. -/
def UnreadableIn (lang s e : Bytes) : Prop :=
  (lang = b! "shell" ∧ parseString s = .err e) ∨ (lang = b! "json" ∧ parseJsonString s = .error e) ∨
  (lang ≠ b! "shell" ∧ lang ≠ b! "json" ∧ parseSexp s = .err e)

/-- The value is not what the text says in that language, and why. -/
inductive WrongValue [Ext] (lang s : Bytes) (v : Value) : Bytes → Prop
  | unreadable {e} : UnreadableIn lang s e → WrongValue lang s v (b! "parsing expected result with format " ++ lang ++ b! ": " ++ e)
  | none {sv} : ReadIn lang s [] → ValueShown v sv → WrongValue lang s v (b! "result mismatch:\nexpected: \"nil\"\nactual: " ++ quote sv)
  | other {w sw sv} : ReadIn lang s [w] → goEqual w v = false → ValueShown w sw → ValueShown v sv →
      WrongValue lang s v (b! "result mismatch:\nexpected: " ++ quote sw ++ b! "\nactual: " ++ quote sv)
  | many {ws} : ReadIn lang s ws → 2 ≤ ws.length →
      WrongValue lang s v (b! "expected result should contain exactly one expression, got " ++ natDec ws.length)

/-- Why a test is not met, as the report says it. -/
inductive WhyFails [Ext] (env : Env) (t : TestCase) : Bytes → Prop
  /-- The script cannot be parsed. -/
  | script {e} : trimSpace t.input ≠ [] → parseString (trimSpace t.input) = .err e → WhyFails env t (b! "parsing input: " ++ e)
  /-- The script fails, but not as expected. -/
  | otherError {p e b core} : TestProgram t p → eval env p (newBuffer t.buffer) = (.err e, b) → trimSpace t.error ≠ [] →
      InParens (trimSpace t.error) core → ¬ Contains e.message core →
      WhyFails env t (b! "expected error containing " ++ quote (trimSpace t.error) ++ b! " but got " ++ quote e.message)
  | unexpected {p e b} : TestProgram t p → eval env p (newBuffer t.buffer) = (.err e, b) → trimSpace t.error = [] →
      WhyFails env t (b! "unexpected error: " ++ e.message)
  /-- The script should have failed. -/
  | noError {p v b} : TestProgram t p → eval env p (newBuffer t.buffer) = (.ok v, b) → trimSpace t.error ≠ [] →
      WhyFails env t (b! "expected error " ++ quote (trimSpace t.error) ++ b! " but got none")
  /-- The test expects nothing. -/
  | nothing {p v b} : TestProgram t p → eval env p (newBuffer t.buffer) = (.ok v, b) → trimSpace t.error = [] → t.output = [] → trimSpace t.result = [] →
      WhyFails env t b! "test case must specify at least one of <output> or <result> elements"
  /-- The text is wrong. -/
  | output {p v b} : TestProgram t p → eval env p (newBuffer t.buffer) = (.ok v, b) → trimSpace t.error = [] → t.output ≠ [] → t.output ≠ b.content →
      WhyFails env t (b! "output mismatch:\nexpected: " ++ quote t.output ++ b! "\nactual: " ++ quote b.content)
  /-- The text is right, but what is expected of the value is not one value, or another one. -/
  | result {p v b e} : TestProgram t p → eval env p (newBuffer t.buffer) = (.ok v, b) → trimSpace t.error = [] → (t.output = [] ∨ t.output = b.content) →
      trimSpace t.result ≠ [] → WrongValue (ResultLang t) (trimSpace t.result) v e → WhyFails env t e

/-- The test in this file cannot be read, or is not met; and why. -/
inductive FileFails [Ext] (load : Bytes → Except Bytes TestCase) (f : Bytes) : Bytes → Prop
  | load {e} : load f = .error e → FileFails load f e
  | test {t e} : load f = .ok t → WhyFails defaultEnv t e → FileFails load f e

end Texted.Spec
