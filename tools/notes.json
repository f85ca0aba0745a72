{
 "C09": {
  "status": "proved",
  "note": "The naive expectation is refuted (C09_false_*); the exact behaviour is proved."
 },
 "C12": {
  "status": "proved",
  "note": "The naive expectation is refuted (C12_false_*); all in-range points are covered by C12_beginning_of_line, C12_after_final_newline, C12_empty_buffer."
 },
 "C59": {
  "status": "proved",
  "note": "The documented value is refuted (C59_false); the exact value is proved for every in-range point."
 },
 "C17": {
  "status": "proved",
  "note": "The documented behaviour is refuted except at the end of the buffer (C17_false*); the exact behaviour is proved for every in-range buffer."
 },
 "C19": {
  "status": "proved",
  "note": "The naive expectation is refuted when point is on a newline (C19_false); the exact behaviour is proved for all in-range points and counts."
 },
 "C47": {
  "status": "proved",
  "note": "Unicode case tables are a parameter. The naive expectation for capitalize is refuted (C47_capitalize_false); exact: C47_capitalize_exact."
 },
 "C49": {
  "status": "proved",
  "note": "For every regexp engine meeting the contract. Completeness of looking-back is refuted (C49_looking_back_false); exact: C49_looking_back_exact."
 },
 "C01": {
  "status": "proved",
  "note": "The unconditional claim is refuted (C01_false_*). C01_panic_iff: one call inside the buffer; C01_panic_anywhere: one call wherever point is; C01_program_exact, C01_program_anywhere: whole programs, the latter without any assumption; C01_safe_form: a syntactic criterion."
 },
 "C02": {
  "status": "proved",
  "note": "The unconditional claim is refuted (C02_false_*). C02_leaves_iff: one call; C02_program_exact: whole programs, as an equivalence. C02_brings_back: what brings point back."
 },
 "C41": {
  "status": "proved",
  "note": "The naive expectation is refuted for commands that start with '(' (C41_false_*); exact: C41_paren_exact, C41_shell_uses_every_token."
 },
 "C36": {
  "status": "proved",
  "note": "An empty command is written as an empty line and read back as nothing (C36_false_empty_command); all other shell-expressible programs round-trip and everything else is refused."
 },
 "C61": {
  "status": "proved",
  "note": "A negative result: refusal proved for every program. C37_text_array gives the form that works."
 },
 "C37": {
  "status": "proved",
  "note": "Trees and texts; symbols in argument position come back as strings (C37_symbol_argument). JSON decoding error texts are not modelled."
 },
 "C66": {
  "status": "proved",
  "note": "The engine is a parameter with the contract EngineFor (Spec/Regexp.lean); a real engine meeting the contract (reExt) is the witness. Expansion of $ in replacements is modelled (Model/Expand.lean); the rule for references is stated for ASCII replacements, as Go's table of letters is a parameter. Naive expectations are refuted (C66_false_*)."
 },
 "C65": {
  "status": "proved",
  "note": "Naive expectations refuted by C65_false_replace_empty_buffer and C65_false_mark_follows_text."
 },
 "C67": {
  "status": "proved",
  "note": "Numbers are printed and read back exactly (no contract needed); strconv.Quote's table of printable runes is a parameter. Naive expectations are refuted by C67_false_*."
 },
 "C68": {
  "status": "proved",
  "note": "pflag's StringSlice and the encoding/csv reader and writer (default settings) are modelled from their documented source; the position in csv error texts is left out. C68_exact: readAsCSV is equivalent to the declarative records of Spec/CommandLine."
 },
 "C69": {
  "note": "strconv.ParseFloat is modelled on exact numbers (Model/Number, Model/F64) and proved equivalent to Spec/Number (which texts) and Spec/Float (nearest float64 as a statement about rationals). Exponents with more digits than needed saturate as in Go: digits after the exponent has reached 10000 are ignored; the specification says so, and C69_exponent_exact shows that this changes nothing below 100000."
 },
 "C40": {
  "note": "unquote_iff (Lemmas/Literal) proves strconv.Unquote for double quotes equivalent to the literal grammar of Spec/Literal."
 },
 "C71": {
  "note": "pflag v1.0.6's FlagSet.Parse is modelled from its documented source and proved equivalent to the declarative grammar Spec/CommandLine; cobra's choice of the subcommand, completion and the texts of help and usage are not modelled."
 },
 "C72": {
  "note": "mcp-go v0.31.0's accessors (GetString, RequireString, GetBool, RequireStringSlice) are modelled from their documented behaviour on decoded JSON; no theorem depends on the wording of its errors. Transport, other messages and the envelope of the answer are not modelled."
 },
 "C73": {
  "note": "The regular expression engine is a parameter; TextExt says it reports positions between characters of UTF-8 text (proved for the engine of Lemmas/ReExt). The ASCII theorems need nothing of it."
 },
 "C74": {
  "note": "strings.Title (headings of the verbose list) is a parameter. C74_tool_leaves_out is a finding: the tool does not tell which parameters are optional."
 },
 "C75": {
  "note": "Which float64 a text is read as is C69. A number that is exactly 2^63 is left open: whether it is printed with all digits depends on what int(x) gives outside the range of int, which Go leaves to the implementation."
 },
 "C76": {
  "status": "proved",
  "note": "cobra's choice of the subcommand modelled from cobra v1.9.1 (Model/Main). C76_exact, C76_unknown_exact and C76_root_exact are the three cases as equivalences; C76_false_switch_before refutes the naive expectation."
 },
 "C77": {
  "status": "proved",
  "note": "encoding/xml (Go 1.24, strict mode) modelled in Model/Xml from its source as known, token by token; grammar in Spec/Xml. C77_exact is an equivalence, so also what is refused is settled. Parameters: the tables of non-ASCII name characters, and whether the contents of a <?xml ...?> declaration are acceptable. The repository's 67 test files are read by the model in Vectors.lean."
 },
 "C78": {
  "status": "proved",
  "note": "The same process model as C62 (Model/EditCmd, every system call may fail, every print may be cut short). C78_verbose and C78_quiet by a simulation that ignores prints (Lemmas/Prints). In place: distinct file names and no backup name among them, as for C62. With -e the flag --quiet does change the run: see C58. C78_error: the text of the error of a failing run tells which file or step failed."
 },
 "C79": {
  "status": "proved",
  "note": "Composed from the other models (command line, parser, evaluator, builtins, process with failing system calls). OLD and NEW in C79_search_and_replace are characters that need no escape; C79_replace is the general form (any string literal). Script below 65536 bytes (C53)."
 },
 "C80": {
  "status": "proved",
  "note": "Spec/Errors lists the messages; C80_every_error is an induction over the instruction. What regexp.Compile says of a bad expression is a parameter of the model."
 },
 "C81": {
  "status": "proved",
  "note": "Texts below 2^53 bytes where lines are counted or forward-char is used. Finding: the README's word recipe replaces the whole text if the word is its end (mark-word does nothing there and the mark is at 1)."
 },
 "C82": {
  "status": "proved",
  "note": "For numbers whose integer part does not fit in 64 bits Go leaves the conversion to the machine; it is a parameter of the model (`Ext`)."
 },
 "C83": {
  "status": "proved",
  "note": "Findings: no JSON script ever succeeds with the tools although the descriptions offer the syntax; several documented examples fail (match-beginning, line-number-at-pos with an argument, single backslashes in strings); `search-forward …; point` is the position behind the match."
 },
 "C84": {
  "status": "proved",
  "note": "How mcp-go turns the options into the JSON schema is modelled from its documentation."
 },
 "C85": {
  "status": "proved",
  "note": "The reference gives no types; they are taken from the parameter names (Spec/Reference)."
 },
 "C86": {
  "status": "proved",
  "note": "Where a name leads is any function, fixed during the run (no program of the repository makes links). C86_one_file and C86_one_by_one are exact (both directions) for every naming. C86_in_place and C86_original_survives assume that the files and backups are different files; C86_false_backup_link shows that this is needed. The condition does not involve the script file."
 },
 "C87": {
  "status": "proved",
  "note": "The others are any relation on worlds; they may act between any two steps of the program, also inside a write. os.ReadFile is one step. Links are not combined with this (C86 is separate). The two negative results are facts about the code, proved by exhibiting runs."
 },
 "C88": {
  "status": "proved",
  "note": "Memory is modelled for the list functions and Equal; the rest of the model uses trees. Values in cycles (made by assignments) stand for no tree and are outside C88_equal."
 },
 "C89": {
  "status": "proved",
  "note": "The functions and callbacks are arbitrary total functions; functions that return the nil interface or do not end are not modelled."
 },
 "C90": {
  "status": "proved",
  "note": "Assumed: sync.RWMutex (a writer announces itself, then waits for the readers that are in) and that ranging over an unchanged map visits each entry once. Not modelled: callers that change the slices inside a FunctionDoc they got (they share memory with the registry)."
 },
 "C91": {
  "status": "proved",
  "note": "The nine permission bits; no ACLs, no set-user-id bits, no directory permissions (creating a file may fail at any time)."
 },
 "C92": {
  "status": "proved",
  "note": "C92_left/C92_left_happens: exactly the three states. C92_recover, C92_recoverable, C92_repaired: telling the original. C92_false_recovery/C92_false_procedure: impossible for appending scripts. C92_scope, C92_trail, C92_rerun: histories. C92_again, C92_twice, C92_replace_again, C92_replace_recoverable: when it is safe. C92_false_backup: running again destroys the original."
 },
 "C93": {
  "status": "proved",
  "note": "C93_table: refinement of all fifty functions with a bound on loop rounds; C93_meaning, C93_more: never stuck, independent of the bound; C93_line_commands: the number of rounds of the line commands is not bounded by the text; C93_insert, C93_isLetter: the helpers; C93_reached: invariant of all histories of calls; C93_script, C93_runs: whole scripts."
 },
 "C94": {
  "status": "proved",
  "note": "C94_one_end: a call ends in one way only, whatever the bounds; C94_parse, C94_lexer, C94_json, C94_json_values, C94_format: the parsers; C94_grammar: against the grammar of scripts; C94_expression: against the rules of evaluation; C94_eval, C94_errors, C94_equal, C94_string, C94_writers, C94_methods: the rest; C94_roundtrip, C94_script: Go text to Go text."
 },
 "C95": {
  "status": "proved",
  "note": "C95_does: what 'does what the program does' means for moments and endings; C95_execute, C95_files, C95_edit, C95_parse, C95_parse_prints, C95_writers, C95_eval_tool, C95_edit_tool: function by function; C95_operations, C95_script: together with the Go texts of C94; C95_edit_file_outcomes, C95_edit_file_moments, C95_edit_files_outcomes, C95_original_survives, C95_scope, C95_refused, C95_delivered, C95_in_place, C95_eval_touches_nothing: C29 to C34 and C46 of the Go text."
 },
 "C96": {
  "status": "proved",
  "note": "C96_formatValue, C96_formatInstruction, C96_callback, C96_parseTestCase, C96_parseTestFile, C96_runTest, C96_runTestWithTrace, C96_runTestFile, C96_runTestFileWithTrace, C96_printTestResult, C96_runTests: function by function, as equivalences (so the outcome exists and is unique); C96_verdict, C96_reaches_a_verdict, C96_tracing, C96_exit_status, C96_flags, C96_no_files: C56 and C64 of the Go text."
 },
 "C97": {
  "status": "proved",
  "note": "C97_register, C97_getDocumentation, C97_getAllDocumentation, C97_getDocumentationByCategory, C97_getCategories, C97_count: the registry, in terms of what was registered; C97_formatFunctionDoc, C97_showFunctionDoc: one function; C97_tool, C97_command: exactly the possible answers of the model; C97_tool_answers, C97_command_returns: for every order; C97_tool_deterministic: one answer without verbose."
 },
 "C98": {
  "status": "proved",
  "note": "C98_edit, C98_parse, C98_test, C98_doc: the commands; C98_pick: which command runs; C98_program, C98_program_exact: the whole program (actions, moments, exit status); C98_files_untouched, C98_refused, C98_everyday: consequences; C98_prefix, C98_tools, C98_server: the server. Help texts, and what cobra prints on standard error, are not modelled."
 },
 "C99": {
  "status": "proved",
  "note": "C99_safe: whatever the linked program does, the model does; C99_exact: and conversely as long as it stays in memory; C99_execute, C99_edit_file, C99_edit_file_format, C99_edit_files, C99_edit_files_format, C99_edit, C99_edit_expressions, C99_parse, C99_eval_tool, C99_edit_tool: calls that stay; C99_in_place, C99_delivered: consequences; C99_program: texted WORDS; C99_program_exact: exactly, if the call stays; C99_program_edit, C99_program_expressions, C99_program_parse: exactly, for texted edit (with a script, with -e) and texted parse; C99_real: such a program exists. `parser.ParseJSONReader` (texted parse with JSON input) keeps the meaning of the model, s-expressions are printed by one operation (C94 is about its Go text), a JSON script that is no array is not followed further."
 }
}