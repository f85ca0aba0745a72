# Formal model of dhamidi/texted in Lean 4

## 1. Layout

* `properties.jsonl` – the English properties C01, C02, …
* `lean/Verif/Model/*` – the model, function by function; each definition cites the Go file and lines it models.
* `lean/Verif/Spec/*` – small specification vocabulary (lines, words, occurrences, splices, grammar of scripts, file
  outcomes, …), independent of the model's helpers.
* `lean/Verif/Lemmas/*` – helper lemmas.
* `lean/Verif/Props/*` – the property theorems `Cnn_…`, with non-vacuity examples beside them.
* `lean/Verif/Vectors.lean`, `VectorsGo.lean`, `VectorsDoc.lean` – the repository's own `tests/*.xml` cases and `*_test.go` tables run through
  the model by the kernel. These are *tests* of the model's fidelity (generated by `tools/vectors.py`), not proofs, and
  none is listed in the manifest.
* `MANIFEST.json` – property → theorem names (generated by `tools/manifest.py`). `AXIOMS.md` – axioms of every theorem
  (generated by `tools/axioms.py`). `seeded/LOG.jsonl` – wrong-program experiments (`seeded/run.py`).

Where the natural reading of a property is false of the code, the property is stated as what exactly holds, and the natural
reading is refuted by a theorem named `Cnn_false_…` (these are findings about the code).

## 2. Modelling decisions

* A Go `string` is a `List UInt8`; a rune is a Lean `Char` (Go's decoder never yields surrogates). UTF-8 decoding and
  encoding are modelled exactly, with U+FFFD for invalid bytes.
* Go `int` is 64 bit. It is modelled by `Int` with explicit wrap-around (`wrap64`, `dec64`) at the places
  where a user-chosen number enters the arithmetic; lengths and in-range positions cannot overflow (a Go string is
  shorter than 2^63 bytes), so no wrap is written there.
* `float64` is modelled exactly (`F64`: NaN, ±Inf, canonical dyadic numbers): `strconv.ParseFloat` (decimal, hex,
  underscores, special names, correct rounding) and the shortest printing (`%g`, JSON) are defined and proved to round-trip.
  `int(x)` truncates; for NaN and values outside int64 the Go specification leaves the result
  implementation-defined: a parameter of the model.
* A built-in returns a result (`ok v | err msg | panic`) *and* the buffer after the call, so that partial effects
  of failing code are visible in the model, not excluded by its type. Index/slice expressions that Go checks at
  run time are modelled by functions that yield `panic` out of range.
* The evaluator takes the environment (name → built-in) as a parameter, as in the Go code.
* Programs that touch files are values of a small free monad (`Proc`: read, write, print, read standard
  input) with a step semantics in which a write is open+truncate followed by byte-wise appends, each of which may be
  the last thing that happens (crash) or fail; every outcome of every operation is a possible execution, so the theorems
  hold for every pattern of I/O failures and every crash point. Two different path strings are
  two different files there; `Model/Links` lifts this: names lead to files by an arbitrary function (links, `./`), fixed during a run
  (C86). Nobody else changes the files there; `Model/Others` lifts this: others may act between any two steps (C87); `Model/Modes` adds permissions (C91).
* Concurrent requests to the MCP server (and concurrent `texted` processes) are an interleaving semantics over `Proc`s: every schedule.
* Go's map iteration order is unspecified: what ranges over a map is a *relation* that allows every permutation; `sort.Slice`
  is any function returning a sorted permutation.
* Loops without an evident bound (JSON nesting, parser) are structural, or carry fuel that is proved sufficient.
* External code is a parameter (`Ext`): the regexp engine, `unicode.IsPrint`, `unicode.ToUpper/ToLower`,
  implementation-defined float→int results. Assumed contracts: `LawfulExt` (a match lies inside the text searched) and,
  for C66, `Spec.EngineFor` (leftmost match, successive non-overlapping matches). Instances meeting the contracts are constructed
  (`litExt`: literal patterns; `reExt`: a backtracking engine for a regular-expression subset), so the contracts are
  consistent; all theorems quantify over every instance.

## 3. What is modelled and what is not

Modelled (all non-test Go code of the repository except as listed below):

| code | model |
|------|-------|
| edlisp/builtin_*.go (all 50 built-ins), buffer, eval.go | Model/Buffer, Builtins, Eval |
| edlisp/{symbol,string,number,list,equal,error}.go | Model/Value, Number, Quote |
| edlisp/list.go and equal.go on shared memory; eval.go with functions and callbacks of the embedding program | Model/Memory, Host |
| the calls from texted.go, commands and tools into edlisp, edlisp/parser and edlisp/writer, and from the evaluator into the built-in functions | Model/Link (over Model/FgSource, Model/PgSource, Model/GoSource) |
| cmd/texted/main.go, the declarations of commands, options and tools in commands/*.go and tools/*.go, translated by tools/go2cg.py | Model/CgSource, Model/Cg, Model/CgRun |
| edlisp/documentation_registry.go, tools/texted_doc.go, commands/doc.go (everything but flag declarations and the tool's schema), translated by tools/go2tg.py | Model/TgSource, Model/Tg (order of maps and sorting as a parameter) |
| edlisp/testing/testing.go, commands/test.go (everything but flag declarations), translated by tools/go2tg.py | Model/TgSource, Model/TgVar (generated), Model/Tg, Model/TgRun (meaning of the small Go with printing, maps and sorting) |
| texted.go, commands/edit.go, commands/parse.go, edlisp/writer, tools/edit_file.go and tools/texted_eval.go (everything but flag and tool declarations), translated by tools/go2fg.py | Model/FgSource, Model/FgVar (generated), Model/Fg, Model/FgRun (meaning of the small Go with system actions) |
| edlisp/parser/linebased.go, parser/json.go, eval.go (`Eval`, `EvalWithTrace`, `evalExpression`), error.go, equal.go, `String` methods, conversions of the writers, translated by tools/go2pg.py | Model/PgSource, Model/PgVar (generated), Model/Pg, Model/PgRun (meaning of the small Go with functions) |
| edlisp/builtin_*.go (bodies), `Buffer.Insert`, `isLetter`, translated by tools/go2lean.py | Model/GoSource, Model/GoVar (generated), Model/Go (meaning of the small Go) |
| os.WriteFile(…, 0644) with permission bits | Model/Modes |
| edlisp/documentation_registry.go under concurrent calls | Model/Registry |
| edlisp/parser/linebased.go, strconv.Unquote, strconv.ParseFloat, bufio.Scanner line limit | Model/Parser, Unquote, Number, Utf8 |
| edlisp/parser/json.go, encoding/json decoding and printing of the trees used | Model/Json, JsonText |
| edlisp/writer/*.go | Model/Writer |
| texted.go (ExecuteScript, ParseScript, EditFile, EditFiles, formats) | Model/Script |
| commands/edit.go | Model/EditCmd |
| concurrent requests; names that lead to the same file; other programs changing files | Model/Pool, Links, Others |
| option tables of commands/*.go, command-line parsing (pflag FlagSet.Parse, StringSlice, encoding/csv) | Model/CommandLine, Flags |
| commands/parse.go, commands/doc.go, commands/test.go | Model/ParseCmd, Docs, TestRunner |
| edlisp/documentation*.go, the documentation table, strings.Title | Model/Docs, Title, DocTable (generated by tools/doctable.py) |
| edlisp/testing/testing.go | Model/TestRunner |
| edlisp/testing/testing.go ParseTestCase with encoding/xml (Unmarshal, Token, text, names, references) | Model/Xml |
| tools/edit_file.go, texted_eval.go, texted_doc.go | Model/Tools, Docs |
| cmd/texted/main.go, cobra's choice of the subcommand | Model/Main |
| commands/mcp.go (names, dispatch), how mcp-go reads arguments | Model/Mcp |
| the parameters declared in tools/*.go | Model/Schemas |

Not modelled: the help and usage texts of cobra and its own subcommands (help, completion), the MCP transport of mcp-go (commands/mcp.go; calls start from the decoded JSON
arguments), in encoding/xml the error texts, the tables of non-ASCII name characters and the contents of XML declarations, reading a directory (the rest of `filepath.Glob` for `tests/*.xml` is modelled),
prose of the documentation, encoding/json's error texts (one text stands for all), Unicode tables, the regexp
engine (only its contract; `$`-expansion in replacements is modelled), Go's memory (stack exhaustion, out of memory), permissions beyond the nine bits, changes of links
while a program runs. The correspondence between Go source and model is by reading; it is tested with the repository's own test vectors.

## 4. Properties: what is modelled and how each is proved

| id | modelled | proof |
|----|----------|-------|
| C01, C02 | all built-ins, evaluator, programs | exact hazard condition per built-in (`*_iff`), lifted to programs by induction, also for points outside the buffer (`Props/PanicExact`); naive claims refuted by explicit scripts |
| C03–C05, C51, C52 | edit built-ins | splice equations with `take`/`drop` for all in-range states |
| C06–C09 | search built-ins, strings.Index/LastIndex | least/greatest occurrence spec; list induction |
| C10–C15, C59 | motion | line/word/column specs; induction on the scanning loops |
| C16–C20 | word/line kill and mark | equality with sequences of simpler commands; exact spans |
| C21, C60, C48 | slices, sizes, concat | take/drop laws; exactness below 2^53 |
| C22–C24 | all built-ins | case analysis over the whole environment |
| C25–C27 | evaluator, trace | big-step relation `Spec.Evals` ⇔ evaluator; induction over programs and expressions |
| C28–C30, C33, C34, C62 | texted.go, commands/edit.go | all executions of the `Proc`; induction over file lists |
| C31, C32 | backup, dry run | invariant over every step (crash point) of the `Proc` |
| C57 | worker pool | invariant over all interleavings |
| C58 | -e expressions | induction over the expression list |
| C35–C38, C40, C61 | writers, parser, JSON text, Quote/Unquote | round trips by mutual induction; number print/parse exactness |
| C39, C41, C42, C53 | parser | equivalence with a declarative grammar (`Spec/Grammar`, with literals of `Spec/Literal` and numbers of `Spec/Number`) |
| C43 | JSON validation | mutual induction over trees; decoder ⇔ declarative grammar of JSON (`Spec/JsonText`: strings, numbers, arrays, objects, depth), unambiguous; refusals ⇔ `Spec/JsonErrors` |
| C44 | Equal | mutual induction; equivalence and congruence |
| C45 | loopUntilError | induction over rounds, exact characterisation |
| C46 | texted_eval handler | all executions of the handler |
| C47 | case functions | list induction, case tables as parameter |
| C49, C66 | regexp built-ins | from the engine contract, for every engine |
| C50, C65 | mark and boundary commands | equations |
| C54, C55, C63 | doc listing, registry, environment | permutation invariance of sorting; the finite table of the repository, generated |
| C56, C64 | test runner, `texted test`, `filepath.Glob("tests/*.xml")` from the names in the directory on | case analysis; induction over files and cases; each reason for a failure ⇔ the rule of `Spec/TestRunner` that states it (`Props/TestReasons`) |
| C71 | command lines | pflag's parser ⇔ declarative grammar of options and operands (`Spec/CommandLine`): induction over words and letters; refused lines ⇔ `Spec/Refusal` (`Misread`), with the message |
| C72 | MCP calls | arguments as decoded JSON; accessors of mcp-go ⇔ `Given` (last field of that name); handlers composed with C45/C46/C54; answers through JSON encoding (`Shown`) |
| C73 | all built-ins, evaluator, scripts, EditFile, EditFiles, `texted edit -i` | invariant "point between characters; mark and match too unless stale" over tidy call sequences (`Spec/Utf8Text`, characters encoded by Lean's own `String.utf8EncodeChar`), counterexamples for every excluded case; byte-origin invariant for ASCII |
| C74 | documentation texts of the command and the tool | exact texts for the lists, parts in order (`Spec/Docs` `InOrder`, `InSections`) for the entries; the map order is a parameter of the relation |
| C75 | `Number.String`, numbers in JSON output | `Spec/Shortest` (`Shortest`, `PlainForm`, `ExponentForm`); the numbers that are read as a float64 are an interval, the candidates enclose the number, 17 digits suffice because of the spacing of float64s |
| C76 | cmd/texted/main.go, cobra `Find` | `Spec/Main` (`Leading`: words before the name); induction on the words gives three exclusive cases; runs through `bind` |
| C77 | testing.go ParseTestCase, encoding/xml | `Spec/Xml` (inductive grammar with meanings); every reading loop against its rule (induction on fuel / derivation), then the stack machine against the nesting, both directions |
| C78 | messages of commands/edit.go | `Spec/Printed` (`Report`, `Announced`, `PrintedOn`); simulation up to prints for --verbose/--quiet; induction over the files for the reports |
| C79 | everyday scripts, from words to files | `Spec/Written` (scripts as written, first occurrence); composition of C42 (grammar), C06/C08/C03/C11/C18, C71, C76, C62, C31, C32; induction over the files for crash points |
| C80 | what errors of running scripts say | `Spec/Errors` (how many arguments, which type, all messages); case split over the documentation table and over argument lists; induction over the instruction |
| C81 | recipes of the README | composition of the theorems on the commands (C03–C06, C11, C12, C14, C20, C65, C66) along the script, with decompositions of the text; documented examples that fail are refuted by evaluation |
| C82 | numbers as arguments | the conversion is compared with the rational value of the float (`IntegerPart`); congruence of all functions and of the evaluator under `Alike` |
| C83 | promises of the MCP tool descriptions | composition of C06, C12, C13, C04/C05, C46, C29 along the described scripts; a script whose first word starts with `[` or `n` has a first command no function is called as (induction over the grammar), hence JSON never runs; documented examples that fail are refuted by evaluation |
| C84 | declared parameters of the MCP tools | the declarations as data (`Model/Schemas`), compared with what the handlers read (`Spec/Schemas`): congruence in the declared parameters, case split over tools and types |
| C85 | the function reference | the headings of docs/functions.md as data (`Spec/Reference`, generated), compared with the documentation table by evaluation and, through C55 and C63, with the functions; induction over values for nested calls |
| C86 | names that lead to the same file | a naming (any function from names to files) sends every action of the program to the file its name leads to (`Model/Links`); simulation: if the names of a program lead to different files, its runs are runs on files by name; the library functions for every naming, by induction over the list of names |
| C87 | other programs changing files meanwhile | runs in which any relation on worlds may act between two steps of the program (`Model/Others`); simulation: if the relation leaves alone the names a program mentions, the run is a run alone as far as these are concerned; invariant "no write left" for programs that do not write; counterexample runs for the two negative results |
| C88 | the list functions of the Go API | memory: cells, arrays and slices as windows of arrays (`Model/Memory`); calls only make memory grow, values denote trees by an inductive relation preserved by growth; assignments and Go's append as operations of the host; `Equal` on memory ⇔ `Equal` on trees by mutual induction |
| C89 | functions and callbacks of embedding programs | the evaluator over an arbitrary host state from which the environment is read (`Model/Host`) ⇔ a big-step relation; conservative over the evaluator of C25–C27; invariants by induction over expressions |
| C90 | documentation registry used by several goroutines | the functions as sequences of atomic actions of goroutines on a map and a read-write mutex (`Model/Registry`), one action per visited entry; an invariant over traces (who holds the lock; what each goroutine has done since its call); linearizability by induction over the trace; a measure for termination; C54 for the answers |
| C91 | permissions | a second transition system with permission bits (`Model/Modes`): opening needs the permission, creating gives 0644 without the umask; erasure to the runs of `Model/Proc` and lifting back if all is permitted; invariants over steps; `Demands` (every way to success passes through a successful action) by structural recursion on programs |
| C92 | Interrupted runs and running the command again | No new model: histories are made of runs of `runEdit` in the step semantics of Model/Proc. Spec/Rerun has `Left` (what a run can leave of file and backup), `Recovered` (how to tell the original), `Runs` (histories), `Trail` (what may become of a file), `Repaired` (histories with repairs) and `edited`. Soundness and completeness of `Left` by following the program; recovery from `Left` by cases; impossibility of recovery by exhibiting two different originals with interrupted runs that leave equal files; histories by induction; `C62_runs_through` (all files, also if the script fails on some) gives the outcome of the run after the interruption. The negative result composes an interrupted run with a complete one. |
| C93 | The built-in functions as they are written in Go | `tools/go2lean.py` parses the Go text of the fifty functions, of `Buffer.Insert` and `isLetter` and writes them as terms of a small Go (`Model/GoSource`, `Model/GoVar`; it stops at anything it does not know). `Model/Go` gives that language a meaning: expressions (`GoE.eval`, with `panic` and `stuck`) and statements (`GoS.exec`, with a bound on the rounds of a loop). `Spec/Go` says what `Agrees` means. One lemma per function (Lemmas/GoBuiltins, GoMotion, GoQuery), loops by induction with invariants (Lemmas/GoLoops), `Ints` as the invariant of all histories of calls (Lemmas/GoInts), scripts by induction over expressions (Props/GoScript). |
| C94 | The parsers, the evaluator, Equal and the writers as they are written in Go | `tools/go2pg.py` parses the Go text of 35 functions and writes them as terms of a second small Go with functions that call each other (`Model/PgSource`, `Model/PgVar`; it stops at anything it does not know); `Model/Pg`, `Model/PgRun` give that language a meaning with a bound on loop rounds and on call depth. `Spec/Pg` says what it means that a call ends, returns, fails, crashes. Lemmas/Pg: symbolic execution; PgParse, PgTokens, PgReader, PgEval, PgValues, PgJson, PgFormat: one lemma per function, loops by induction with invariants, mutual recursion by induction on the value, the tokens or the text; PgMono: the bounds do not matter once a run has ended; PgSize: a program has at most two parts per byte of its text. |
| C95 | Editing files, the edit and parse commands, the writers and the tools as they are written in Go | `tools/go2fg.py` parses the Go text of 31 functions and writes them as terms of a third small Go whose functions act on the operating system (`Model/FgSource`, `Model/FgVar`; it stops at anything it does not know); `Model/Fg`, `Model/FgRun` give a call a meaning as a `Proc`, a tree of actions and replies. `Spec/Fg`: what it means that a call does what a program does, what can be seen of it and how it ends. Lemmas/Fg: symbolic execution, loops against recursion (a relation between programs); FgWrite, FgInPlace, FgEdit, FgExpr, FgRunEdit, FgParse, FgTools: one lemma per function; FgMono: the bounds do not matter once a run has ended. |
| C96 | The test runner as it is written in Go | `tools/go2tg.py` parses the Go text of the test runner and of the documentation and writes it as terms of a fourth small Go that prints, exits, goes through maps and sorts (`Model/TgSource`, `Model/TgVar`; it stops at anything it does not know); `Model/Tg`, `Model/TgRun` give a call a meaning. `Spec/Tg`: a call ends in an outcome if it does so for all bounds that are large enough. Lemmas/Tg: symbolic execution; TgFormat (recursion of formatValue with its loop), TgTest, TgRunTest, TgFile, TgCommand: one lemma per function, loops by induction on the list, long functions cut into a head and an opaque rest. |
| C97 | The documentation as it is written in Go | The functions are in `Model/TgSource` (translated by tools/go2tg.py), with the meaning of `Model/Tg`: a choice that Go leaves open is taken from a parameter `order`, and `LawfulOrder` (Spec/Tg) allows every permutation. Lemmas/TgSort: things in an order, sorting, maps, loops with an invariant; TgDoc: a small calculus of statements that write text (`Does`), formatFunctionDoc and showFunctionDoc; TgDocs: the registry and formatFunctionList; TgDocTool, TgDocCommand: the tool and the command as functions of the order. Props/TgDocs: for every lawful order the result is one that the relations of Model/Docs allow, and for every result that they allow there is a lawful order that leads to it. |
| C98 | The program from its command line on, as it is declared and written in Go | `Model/CgSource` (generated by tools/go2cg.py) holds the declarations as data; `Model/Cg` says what cobra and pflag make of them: registering writes the default into the variable and panics on a name or shorthand in use, settings write variables one after the other, `RunE` reads the variables; `Model/CgRun` calls the functions of Model/FgSource and Model/TgSource. Lemmas/Cg: for options with distinct names and variables, what the settings make of each variable; Lemmas/CgCommands: the four commands; Props/CgSource: whole program and server equal to `textedMain`, `testMain`, `DocMain`, `McpCall`, with consequences for files. |
| C99 | The packages linked together, everything as it is written in Go | `Model/Link` runs the statements of Model/FgSource with operations that call the functions of Model/PgSource (parsers, evaluator, writers), with an environment that calls those of Model/GoSource; calls on what does not fit into memory are not followed further. Lemmas/Link: the linked operations approach those of the model (C94, C93), hence the runs (a simulation by induction on programs); Lemmas/LinkRun, LinkStays, LinkEdit, LinkMore, LinkFree, LinkExpr, LinkExprRun: a small Hoare logic for runs that stay within the memory (functions that parse and run nothing do not depend on it); Props/Linked, LinkedMore, LinkedExpr: C99_safe, C99_exact and consequences. |
| C70 | format flags | congruence of all of `runEdit` in the format |
| C69 | numbers | strconv.ParseFloat ⇔ declarative texts (`Spec/Number`) and nearest float64 over ℚ (`Spec/Float`): induction over the digit loops, error analysis of the rounding |
| C68 | -e, --include values | CSV scanner: round trip by induction over fields, exact refusals |
| C67 | `texted parse` | spelling invariant of parsed programs (`Lemmas/Spelled`), JSON text invariant (`Lemmas/JsonTextual`); stream reader and writer ⇔ sequences of JSON texts (`Spec/JsonText`) |

No property of the list is inexpressible in the model; those whose natural statement is false of the code are proved in their exact form
and the natural statement is refuted.

## 5. Trusted base

* Lean 4.33.0's kernel. No axioms of our own; every theorem depends on at most `propext`, `Classical.choice`, `Quot.sound`
  (per theorem: `AXIOMS.md`). `decide +kernel` is used for concrete witnesses only: it is evaluated by the kernel.
* Mathlib is used for rational arithmetic only (Spec/Float, Spec/Number, Lemmas/Round, Lemmas/NumberText); its theorems are checked by the same kernel.
* The reading of the Go code, of the Go language specification and of the standard library functions modelled (section 3).
* The generated table `Model/DocTable.lean` (produced from the Go sources by `tools/doctable.py`).
* For the built-in functions the reading of the Go code is narrowed down by C93: there the trusted part is the translator `tools/go2lean.py`
  (a parser for the subset of Go these functions use; it refuses everything else), the meaning of that subset in `Model/Go.lean`, and the
  library functions it calls (`strings.Index`, `regexp`, …, section 3). The fifty hand-written definitions of `Model/Builtins.lean`, which
  all other properties use, are proved equal to it.
