{"id": "C01", "title": "When scripts crash", "statement": "A script panics (Go index or slice out of range) on a text exactly if one of the calls it makes is one of these: delete-char inside the text with a count that reaches back before its start; or, when an earlier call has put point outside the buffer (C02), forward-word or mark-line with a positive count and point before the buffer; backward-word with a positive count, mark-line, delete-backward-char with a count that moves back, or looking-back of a pattern that compiles or fits before point, with point behind it; delete-line, kill-word or backward-kill-word with point on either side. All other calls end with a value or an error wherever point is. Consequently every script that avoids exchange-point-and-mark, beginning-of-line and negative or astronomically large literal counts of delete-char and backward-char never crashes, whatever its other (computed, wrong, NaN, infinite) arguments. The README's unconditional claim ('all operations validate arguments and bounds automatically') is false: panicking scripts exist for an empty text, for a stale mark and for a negative count.", "quantifier": "all scripts (any length and nesting), all initial buffer contents, all numeric arguments including NaN/infinite/out-of-int-range", "why_tests_cant": "panics depend on combinations of earlier commands, content length and numbers; a test only tries a few combinations", "anchors": ["edlisp/eval.go:EvalWithTrace", "edlisp/eval.go:evalExpression", "edlisp/builtin_*.go"]}
{"id": "C02", "title": "When point leaves the buffer", "statement": "During a script run on a fresh buffer, 1 <= point <= buffer-size+1 holds before and after every call exactly when no call is one of: exchange-point-and-mark with mark outside the buffer, beginning-of-line on an empty text, backward-char with a count that moves past the end. The README's unconditional 'invalid positions are automatically clamped to buffer bounds' is false (point can become 0 or larger than buffer-size+1). Once outside, point is brought back by every successful goto-char, goto-line, beginning-of-buffer, end-of-buffer, forward-char, end-of-line, search (all four), replace-match, mark-whole-buffer, and by beginning-of-line on a nonempty text.", "quantifier": "all scripts, all initial contents, every intermediate state", "why_tests_cant": "an invariant over all reachable states; violating states need specific command sequences", "anchors": ["edlisp/eval.go:Buffer", "edlisp/builtin_backward_char.go", "edlisp/builtin_exchange_point_and_mark.go", "edlisp/builtin_beginning_of_line.go"]}
{"id": "C03", "title": "insert splices text at point", "statement": "With point in range, insert s turns content into (text before point) ++ s ++ (text from point on), advances point by len(s), leaves mark and the recorded match alone; two inserts in a row equal one insert of the concatenation; with point before the buffer it prepends and with point past the end it appends.", "quantifier": "all contents, all points (also out of range), all inserted strings", "why_tests_cant": "unbounded strings and positions", "anchors": ["edlisp/eval.go:Insert", "edlisp/builtin_insert.go"]}
{"id": "C04", "title": "delete-region removes exactly the region", "statement": "delete-region removes exactly the bytes between min(mark,point) and max(mark,point), clamped to the buffer, whichever of the two comes first; everything before and after is kept in order, point ends at the region start, mark is not moved; an empty region changes nothing; swapping point and mark beforehand gives the same text.", "quantifier": "all contents, all mark and point values", "why_tests_cant": "all pairs of positions and contents", "anchors": ["edlisp/builtin_delete_region.go", "edlisp/builtin_region_beginning.go", "edlisp/builtin_region_end.go"]}
{"id": "C05", "title": "replace-region equals delete-region followed by insert", "statement": "For a non-empty region, replace-region s produces the same buffer as delete-region followed by insert s; point ends after the replacement. For an empty region replace-region changes nothing (it does not insert).", "quantifier": "all contents, mark, point and replacement strings", "why_tests_cant": "equivalence of two command sequences over all states", "anchors": ["edlisp/builtin_replace_region.go", "edlisp/builtin_delete_region.go", "edlisp/eval.go:Insert"]}
{"id": "C06", "title": "search-forward finds the nearest literal occurrence", "statement": "search-forward p succeeds exactly when point is before the end of the buffer and p occurs at or after point; it then records and moves past the earliest such occurrence, which lies at or after the old point; content and mark never change; regex metacharacters in p have no special meaning.", "quantifier": "all contents, points and patterns", "why_tests_cant": "earliest-ness and completeness are universally quantified over positions", "anchors": ["edlisp/builtin_search_forward.go"]}
{"id": "C07", "title": "search-backward finds the last occurrence before point", "statement": "search-backward p succeeds exactly when p occurs entirely before point; it then moves to the end of the last such occurrence; content and mark never change.", "quantifier": "all contents, points and patterns", "why_tests_cant": "maximality over all positions", "anchors": ["edlisp/builtin_search_backward.go"]}
{"id": "C08", "title": "search then replace-match edits exactly the match", "statement": "After a successful (regexp or literal, forward or backward) search with a non-empty match, replace-match r succeeds and replaces exactly the matched bytes with r, leaving the rest intact and point right after r. Without any earlier search it fails and changes nothing.", "quantifier": "all contents, points, patterns, replacements, all regexp engines meeting the index contract", "why_tests_cant": "relation between two commands through hidden match state", "anchors": ["edlisp/builtin_replace_match.go", "edlisp/builtin_search_forward.go", "edlisp/builtin_search_backward.go", "edlisp/builtin_re_search_forward.go", "edlisp/builtin_re_search_backward.go"]}
{"id": "C09", "title": "replace-match edits the recorded positions", "statement": "replace-match replaces the bytes at the positions the last search recorded, or fails without effect if there is no recorded non-empty match or the positions no longer exist; only the four searches change the record. So as long as no editing command ran since the search it replaces exactly the matched text, but positions are neither adjusted nor invalidated by edits: a second replace-match, or an insert in between, makes it overwrite unrelated text (refuted expectation).", "quantifier": "all scripts and contents", "why_tests_cant": "needs the relation between recorded match and later edits in every history", "anchors": ["edlisp/builtin_replace_match.go", "edlisp/eval.go:Buffer"]}
{"id": "C10", "title": "goto-char clamps and is exact in range", "statement": "goto-char n puts point at n when 1 <= n <= point-max, at 1 when n < 1 and at point-max when n > point-max, touching nothing else; goto-char (point) is the identity on in-range buffers below 2^53 bytes.", "quantifier": "all contents and all numeric arguments convertible to int", "why_tests_cant": "all numbers incl. fractional ones", "anchors": ["edlisp/builtin_goto_char.go", "edlisp/builtin_point.go"]}
{"id": "C11", "title": "goto-line and line-number-at-pos agree", "statement": "After goto-line n, line-number-at-pos reports n clamped to [1, number of lines], and point is at the first byte of that line (position 1 or just after a newline); content is untouched.", "quantifier": "all contents and all n", "why_tests_cant": "round trip over all texts and line numbers", "anchors": ["edlisp/builtin_goto_line.go", "edlisp/builtin_line_number_at_pos.go"]}
{"id": "C12", "title": "beginning-of-line", "statement": "beginning-of-line moves point to the position after the last newline before point (or 1), changing nothing else, for every point on a character and at the end of a text that does not end in a newline. After a final newline it instead goes to the start of the line before, and on an empty text point becomes 0 (refuted expectation).", "quantifier": "all contents and points", "why_tests_cant": "the failing boundary cases depend on content shape", "anchors": ["edlisp/builtin_beginning_of_line.go"]}
{"id": "C13", "title": "end-of-line goes to the end of the current line", "statement": "end-of-line moves point to the next newline at or after point, or to point-max if there is none, changing nothing else; it is idempotent.", "quantifier": "all contents and in-range points", "why_tests_cant": "universal over contents", "anchors": ["edlisp/builtin_end_of_line.go"]}
{"id": "C14", "title": "forward-char and backward-char are bounded inverse moves", "statement": "forward-char n moves point to point+n clamped to [1, point-max]; backward-char n undoes forward-char n whenever neither clamps; neither changes content or mark. (int64 wrap-around makes very large counts land elsewhere; backward-char does not clamp at the end.)", "quantifier": "all contents, points and counts below 2^62 in magnitude", "why_tests_cant": "unbounded counts and positions", "anchors": ["edlisp/builtin_forward_char.go", "edlisp/builtin_backward_char.go"]}
{"id": "C15", "title": "Word motion stops at word ends", "statement": "forward-word moves to the end of the next maximal run of ASCII letters and digits at or after point (or to the end of the buffer); backward-word moves to the start of the previous one (or to 1); a count of n repeats the motion n times; nothing else changes.", "quantifier": "all contents, in-range points, counts", "why_tests_cant": "unbounded contents and counts", "anchors": ["edlisp/builtin_forward_word.go", "edlisp/builtin_backward_word.go", "edlisp/helpers.go"]}
{"id": "C16", "title": "kill-word deletes what forward-word skips", "statement": "kill-word n removes exactly the text forward-word n would move over and leaves point where it was: it equals set-mark, forward-word n, delete-region up to the mark.", "quantifier": "all contents, in-range points, counts", "why_tests_cant": "equivalence over all states", "anchors": ["edlisp/builtin_kill_word.go", "edlisp/builtin_forward_word.go", "edlisp/builtin_delete_region.go"]}
{"id": "C17", "title": "What backward-kill-word removes", "statement": "backward-kill-word n removes the text from where backward-word n would land through the character at point, if there is one, and puts point at the start of the removed text. So only at the end of the buffer is it what the documentation says (exactly the text backward-word moves over); elsewhere one character too many is removed, even for n = 0 (refuted expectation).", "quantifier": "all contents, in-range points, counts", "why_tests_cant": "off-by-one visible only off the end of buffer", "anchors": ["edlisp/builtin_backward_kill_word.go", "edlisp/builtin_backward_word.go"]}
{"id": "C18", "title": "mark-line then delete-region equals delete-line", "statement": "mark-line n selects from the start of the current line through the n-th newline (or buffer end); for n >= 1 delete-line n removes exactly that selection and puts point at its start; the text removed is whole lines.", "quantifier": "all contents, in-range points, n >= 1", "why_tests_cant": "equivalence over all states", "anchors": ["edlisp/builtin_mark_line.go", "edlisp/builtin_delete_line.go"]}
{"id": "C19", "title": "What kill-line removes", "statement": "kill-line removes the text after the character at point up to the end of the line: with point on a character other than a newline only text of the current line and no newline; with point on a newline the text of the next line (refuted expectation: it does not stay on the current line). At the end of the buffer it does nothing. kill-line n (n >= 2) removes from point through the n-th newline or to the end of the text.", "quantifier": "all contents, in-range points, counts", "why_tests_cant": "depends on the character at point", "anchors": ["edlisp/builtin_kill_line.go"]}
{"id": "C20", "title": "mark-word selects a maximal word", "statement": "On a letter or digit, mark-word selects the unique maximal run of letters and digits containing the character at point.", "quantifier": "all contents and points", "why_tests_cant": "maximality over all positions", "anchors": ["edlisp/builtin_mark_word.go", "edlisp/helpers.go"]}
{"id": "C21", "title": "buffer-substring and substring are consistent clamped slices", "statement": "buffer-substring a b (1-based, end exclusive) returns exactly the bytes at positions a..b-1 intersected with the buffer; adjacent slices concatenate; buffer-substring 1 -1 is the whole buffer; substring behaves the same on its string argument; neither panics nor changes the buffer.", "quantifier": "all contents/strings and all index pairs", "why_tests_cant": "all index combinations incl. out of range", "anchors": ["edlisp/builtin_buffer_substring.go", "edlisp/builtin_substring.go"]}
{"id": "C22", "title": "Query functions are read-only", "statement": "point, mark, point-min, point-max, buffer-size, buffer-substring, line-number-at-pos, current-column, region-beginning, region-end, looking-at, looking-back, length, substring, concat, upcase, downcase, capitalize, string-match and replace-regexp-in-string leave content, point, mark and recorded match unchanged, on success and on failure.", "quantifier": "all arguments and buffers", "why_tests_cant": "frame condition over all inputs", "anchors": ["edlisp/builtin_*.go"]}
{"id": "C23", "title": "Motion and marking never change the text", "statement": "Every movement, search and mark command leaves the buffer content byte-for-byte unchanged; only insert, replace-match, replace-region, delete-char, delete-backward-char, delete-region, delete-line, kill-line, kill-word and backward-kill-word can change it.", "quantifier": "all arguments and buffers, all 50 functions", "why_tests_cant": "frame condition over all inputs", "anchors": ["edlisp/eval.go:NewDefaultEnvironment"]}
{"id": "C24", "title": "A failing command changes nothing", "statement": "If a single command with already evaluated arguments returns an error, the buffer (content, point, mark, match) is exactly as before. README: 'Failed searches leave point unchanged'.", "quantifier": "all 50 functions, all argument lists, all buffers", "why_tests_cant": "all error paths times all states", "anchors": ["edlisp/builtin_*.go"]}
{"id": "C25", "title": "Scripts execute sequentially and stop at the first error", "statement": "Running p followed by q equals running p and, only if it succeeds, running q on the resulting buffer; the first failing instruction stops the script; its error reports that instruction, its 0-based index and the buffer, point and mark at that moment; effects of earlier instructions stay.", "quantifier": "all programs and buffers", "why_tests_cant": "unbounded programs", "anchors": ["edlisp/eval.go:EvalWithTrace", "edlisp/error.go:NewExecutionError"]}
{"id": "C26", "title": "Arguments are evaluated left to right, once, before the call", "statement": "In (f a1 ... an) the arguments are evaluated in order, each exactly once and each seeing the effects of the previous ones; the call happens only after all succeeded; an unknown f fails before any argument is evaluated.", "quantifier": "all expressions, nesting depths and buffers", "why_tests_cant": "unbounded nesting with side effects", "anchors": ["edlisp/eval.go:evalExpression"]}
{"id": "C27", "title": "Tracing observes every executed instruction and changes nothing", "statement": "EvalWithTrace calls the callback once per successfully executed instruction, in order, with the buffer state after it; the result and the buffer are the same as without tracing.", "quantifier": "all programs and buffers (callbacks that only observe)", "why_tests_cant": "unbounded programs", "anchors": ["edlisp/eval.go:EvalWithTrace"]}
{"id": "C28", "title": "ExecuteScript is all-or-nothing and pure", "statement": "ExecuteScript returns either the edited text or an error with empty text, as a function of input and script only; a script with a syntax error anywhere executes nothing; scripts in the shell and sexp formats are treated alike; an unknown format name is rejected.", "quantifier": "all inputs, scripts, formats", "why_tests_cant": "all scripts", "anchors": ["texted.go:ExecuteScript", "texted.go:ExecuteScriptWithFormat", "texted.go:IsValidFormat"]}
{"id": "C29", "title": "A failed edit leaves the file untouched", "statement": "EditFile changes no file other than the named one; if reading, parsing or executing fails, the named file is unchanged as well; on success it holds exactly the script's output.", "quantifier": "all file systems, files, scripts, read failures", "why_tests_cant": "all failure points", "anchors": ["texted.go:EditFile", "texted.go:readFile", "texted.go:writeFile"]}
{"id": "C30", "title": "EditFiles handles each file independently", "statement": "EditFiles returns one result per requested file in order; for distinct files each result and final content is what EditFile alone would give; a failure on one file does not stop or alter the others.", "quantifier": "all file lists, file systems, scripts", "why_tests_cant": "lists of any length with any failure pattern", "anchors": ["texted.go:EditFiles", "texted.go:EditFilesWithFormat"]}
{"id": "C31", "title": "In-place editing with --backup never loses the original", "statement": "With --in-place --backup, at every instant (including a crash in the middle of any write, or a failed write) the original bytes of each file are present in the file itself or in its backup, provided no backup name coincides with a file being edited. Without --backup a crash between truncation and completion of the write can lose the content (negative result).", "quantifier": "all file lists, contents, scripts, suffixes, crash points and write failures", "why_tests_cant": "every crash point of every write", "anchors": ["commands/edit.go:processFilesInPlace"]}
{"id": "C32", "title": "Dry run writes nothing", "statement": "With --dry-run the edit command (script mode) writes no file, whatever the other flags.", "quantifier": "all flag combinations, file lists and file systems", "why_tests_cant": "product of all flags", "anchors": ["commands/edit.go:runEdit", "commands/edit.go:processFiles", "commands/edit.go:processStdin"]}
{"id": "C33", "title": "Without --in-place the input files are never written", "statement": "Unless --in-place is given, the edit command modifies no file except the one named by --output; and --expression mode writes no file at all.", "quantifier": "all flag combinations, file lists and file systems", "why_tests_cant": "product of all flags", "anchors": ["commands/edit.go:runEdit", "commands/edit.go:runExpressions"]}
{"id": "C34", "title": "Contradictory flags are refused before anything is touched", "statement": "The combinations --output with several files, --backup without --in-place, --output with --in-place, an invalid format, and several files with neither --in-place nor --output (script mode) make the edit command fail without writing or printing results. The reason given is true of the flags.", "quantifier": "all flag combinations", "why_tests_cant": "product of all flags", "anchors": ["commands/edit.go:runEdit", "commands/edit.go:processFiles"]}
{"id": "C35", "title": "S-expression output parses back to the same program", "statement": "Writing a program with the S-expression writer and parsing the text with the script parser yields the same program: strings of arbitrary bytes, numbers, nested lists, and symbols made of ordinary name characters survive unchanged.", "quantifier": "all programs whose expressions are lists, whose symbols are plain names and whose printed lines fit the line limit", "why_tests_cant": "round trip over all strings and trees", "anchors": ["edlisp/writer/sexp.go", "edlisp/list.go:String", "edlisp/string.go:String", "edlisp/number.go:String", "edlisp/parser/linebased.go"]}
{"id": "C36", "title": "Shell-like output parses back to the same program", "statement": "Writing a flat command with the shell writer and parsing it yields the same command; the writer refuses nested lists and non-lists instead of dropping them.", "quantifier": "all flat commands with plain symbols", "why_tests_cant": "round trip over all strings", "anchors": ["edlisp/writer/shell.go", "edlisp/parser/linebased.go"]}
{"id": "C37", "title": "JSON conversion round-trips texted programs", "statement": "Converting a command (a list headed by a symbol whose other elements are strings, numbers or such lists) to JSON and back gives the same command. Symbols in argument position come back as strings (negative result).", "quantifier": "all well-formed commands", "why_tests_cant": "round trip over all trees", "anchors": ["edlisp/writer/json.go", "edlisp/parser/json.go"]}
{"id": "C38", "title": "All three syntaxes mean the same program", "statement": "For a command given as plain tokens, the shell line 'f a b', the S-expression '(f a b)' and the JSON array [\"f\",a,b] produce the same program. README: 'three interchangeable syntax formats, all producing identical results'.", "quantifier": "all flat commands of plain symbols, strings and numbers", "why_tests_cant": "all commands", "anchors": ["edlisp/parser/linebased.go:parseLine", "edlisp/parser/json.go:ParseJSONString"]}
{"id": "C39", "title": "Semicolons separate commands only outside quotes", "statement": "A semicolon outside a string literal separates commands exactly like a newline; inside a string literal it is ordinary text. A multi-command line parses to the concatenation of its commands.", "quantifier": "all lists of printed commands", "why_tests_cant": "all strings including quotes, escapes and semicolons", "anchors": ["edlisp/parser/linebased.go:splitOnSemicolons", "edlisp/parser/linebased.go:ParseReader"]}
{"id": "C40", "title": "String literals are faithful", "statement": "Quoting any byte string and reading the literal back gives the same byte string, including newlines, quotes, backslashes, control bytes and invalid UTF-8. Conversely a word of a script is the string s exactly if it is a string literal for s as the Go language defines them (one-letter, \\\\x, octal, \\\\u and \\\\U escapes, each with its exact digits); a word in double quotes that is no such literal is an error, never a symbol. Finding: a literal with text behind it (\"a\"b) is silently a symbol.", "quantifier": "all byte strings and all texts", "why_tests_cant": "all byte strings", "anchors": ["edlisp/string.go:String", "edlisp/parser/linebased.go:parseToken"]}
{"id": "C41", "title": "What of a script line is used", "statement": "Tokenizing a script line loses nothing but blanks, and a command in shell syntax uses every token or fails. A command that starts with '(' uses exactly the tokens of its first expression: everything after its closing parenthesis is silently ignored (refuted expectation: nothing is dropped).", "quantifier": "all script lines", "why_tests_cant": "all lines", "anchors": ["edlisp/parser/linebased.go:parseSExpression"]}
{"id": "C42", "title": "The parser always terminates with a program or an error", "statement": "Parsing any byte sequence as a script terminates with a program or an error and never panics; every parsed top-level line is a list; unbalanced parentheses and unterminated strings are errors, never programs. The programs are exactly those of a declarative grammar of tokens, literals, numbers, symbols, lists, commands and lines, and the grammar is unambiguous.", "quantifier": "all byte sequences", "why_tests_cant": "all byte sequences", "anchors": ["edlisp/parser/linebased.go", "edlisp/parser/json.go"]}
{"id": "C43", "title": "Validated JSON always converts", "statement": "ValidateJSONFormat accepts a top-level value exactly when it is an array that convertJSONValue turns into a program; conversion keeps the number and order of commands. A byte string is accepted as a --json script exactly if it is one JSON text (by the grammar: white space, strings with escapes and surrogate pairs, numbers without leading zeros, at most 10000 levels) that is null or an array of commands, each an array of a name and of strings, numbers and commands; the program is what the text says, and no text says two things. All its strings are UTF-8. Every other byte string is refused with a message that names the first thing wrong: no JSON or no array; otherwise the index of the first wrong command and in it, level by level, of the first wrong element, and what is wrong there (a boolean, null or object, a bare string or number, a command whose first element is no string, with its Go type).", "quantifier": "all JSON values; all byte strings", "why_tests_cant": "all trees and all texts", "anchors": ["edlisp/parser/json.go:ValidateJSONFormat", "edlisp/parser/json.go:ParseJSONString"]}
{"id": "C44", "title": "Equal is structural equality", "statement": "edlisp.Equal is reflexive (on values without NaN), symmetric and transitive, and true exactly when kinds and contents coincide.", "quantifier": "all pairs and triples of values of any depth", "why_tests_cant": "unbounded trees", "anchors": ["edlisp/equal.go:Equal"]}
{"id": "C45", "title": "loopUntilError stops exactly at the first failing round", "statement": "edit_file with loopUntilError repeats the script on all files until the first round in which some file fails and reports that round's number and results; it never returns while all rounds succeed (so a script that always succeeds loops forever).", "quantifier": "all file systems, file lists and scripts", "why_tests_cant": "termination and unbounded iteration", "anchors": ["tools/edit_file.go:editFilesWithLoop", "tools/edit_file.go:EditFileHandler"]}
{"id": "C46", "title": "texted_eval does not touch files and reports the right thing", "statement": "The texted_eval tool in buffer mode returns exactly what ExecuteScript returns, in expression mode the printed value of the last instruction of the same run; both fail for the same scripts; other output modes are refused.", "quantifier": "all inputs, scripts and modes", "why_tests_cant": "all inputs", "anchors": ["tools/texted_eval.go:TextedEvalHandler", "texted.go:ExecuteScript"]}
{"id": "C47", "title": "Case functions", "statement": "upcase and downcase replace exactly the ASCII letters on ASCII text, keep its length, are idempotent and forget each other; on other texts they act rune by rune. capitalize upper-cases the first byte, taken for a character, and lower-cases the rest: on ASCII text the first and the remaining characters; on strings that start with a multi-byte character it corrupts the text (refuted expectation).", "quantifier": "all strings", "why_tests_cant": "all strings", "anchors": ["edlisp/builtin_upcase.go", "edlisp/builtin_downcase.go", "edlisp/builtin_capitalize.go"]}
{"id": "C48", "title": "concat and length form a monoid homomorphism", "statement": "concat joins its arguments in order for any number of arguments, rejects any non-string, and length (concat a b) = length a + length b; substring recovers the parts.", "quantifier": "all argument lists", "why_tests_cant": "unbounded arity", "anchors": ["edlisp/builtin_concat.go", "edlisp/builtin_length.go", "edlisp/builtin_substring.go"]}
{"id": "C49", "title": "looking-at and looking-back", "statement": "looking-at returns t exactly when the leftmost match in the text from point starts at point. looking-back returns t exactly when the leftmost match in the text before point ends at point; so t is right, but nil can be wrong: a match that ends at point is missed if another match starts further left (refuted expectation). A pattern that is no regexp is compared literally.", "quantifier": "all contents, points, patterns and regexp engines meeting the contract", "why_tests_cant": "all contents", "anchors": ["edlisp/builtin_looking_at.go", "edlisp/builtin_looking_back.go"]}
{"id": "C50", "title": "exchange-point-and-mark is an involution; set-mark remembers point", "statement": "exchange-point-and-mark twice is the identity; set-mark followed by any motion and exchange-point-and-mark returns to the remembered position; region-beginning <= region-end and the two are {mark, point}.", "quantifier": "all buffers and motions", "why_tests_cant": "all states", "anchors": ["edlisp/builtin_exchange_point_and_mark.go", "edlisp/builtin_set_mark.go", "edlisp/builtin_region_beginning.go", "edlisp/builtin_region_end.go"]}
{"id": "C51", "title": "delete-char and delete-backward-char remove exactly n characters", "statement": "With 0 <= n, delete-char n removes the min(n, remaining) bytes after point and keeps point; delete-backward-char n removes the min(n, available) bytes before point and moves point back by that many; forward-char n then delete-backward-char n equals delete-char n when n bytes remain. A negative delete-char duplicates text or panics (negative result).", "quantifier": "all contents, in-range points, counts", "why_tests_cant": "all states", "anchors": ["edlisp/builtin_delete_char.go", "edlisp/builtin_delete_backward_char.go"]}
{"id": "C52", "title": "Text outside the edited span survives every edit", "statement": "Each editing command keeps a prefix and a suffix of the old content and only replaces what lies between them; the kept prefix and suffix are determined by point, mark or match as documented, so text far from them is never altered.", "quantifier": "all editing commands, arguments and in-range buffers", "why_tests_cant": "all states", "anchors": ["edlisp/builtin_*.go"]}
{"id": "C53", "title": "Script lines beyond the scanner limit are rejected, not truncated", "statement": "A script containing a line of 65536 bytes or more is rejected with an error (no instruction is executed); shorter lines are parsed in full.", "quantifier": "all scripts", "why_tests_cant": "size boundary", "anchors": ["edlisp/parser/linebased.go:ParseReader"]}
{"id": "C54", "title": "Documentation listing is deterministic", "statement": "GetAllDocumentation, GetDocumentationByCategory and GetCategories return the same sorted lists for every map iteration order. The verbose listing of texted_doc and of the doc command is not deterministic: it depends on map iteration order (negative result).", "quantifier": "all registries and all iteration orders", "why_tests_cant": "Go randomises map iteration; a test sees a few orders", "anchors": ["edlisp/documentation_registry.go", "tools/texted_doc.go:formatFunctionList", "commands/doc.go:listFunctions"]}
{"id": "C55", "title": "Every callable function is documented and vice versa", "statement": "The default environment and the documentation registry contain exactly the same function names; every SeeAlso entry names an existing function.", "quantifier": "all registered functions", "why_tests_cant": "cross-file consistency of two tables", "anchors": ["edlisp/eval.go:NewDefaultEnvironment", "edlisp/builtin_*.go:init"]}
{"id": "C56", "title": "Test runner verdicts are sound", "statement": "RunTest passes only if, when an error is expected, evaluation failed with a message containing it, and otherwise evaluation succeeded, at least one expectation is present, and every given expectation (output, result) is met; tracing does not change verdicts. A value or text that differs from the expected one is shown in the message next to it. Finding: different values can be shown alike. When a test fails, the report says why, and the reason given is right: the script does not parse, it fails otherwise than expected or unexpectedly, it does not fail although it should, nothing is expected, the text differs, the expected value cannot be read, is not one value, or differs.", "quantifier": "all test cases and environments", "why_tests_cant": "all combinations", "anchors": ["edlisp/testing/testing.go:RunTestWithTrace", "edlisp/testing/testing.go:formatValue"]}
{"id": "C57", "title": "Concurrent edits of different files do not interfere", "statement": "Two edit operations on disjoint sets of files give, under every interleaving of their file operations, the same final files as running them one after the other. On the same file an update can be lost (negative result).", "quantifier": "all interleavings of all operation sequences", "why_tests_cant": "schedules", "anchors": ["tools/edit_file.go:EditFileHandler", "texted.go:EditFile"]}
{"id": "C58", "title": "-e expressions see each other's effects and print one result each", "statement": "In --expression mode the expressions are evaluated in order on one shared buffer per file (a fresh one for each file) until the first that does not parse, fails, or cannot be shown; the text ends up as with the one script that has the expressions on a line each. With shell or sexp output exactly one line is printed per expression (with json output the line is followed by an empty one), several files get a header each, and the first failing expression is named by its number. Quiet mode prints nothing at all and still reports failure.", "quantifier": "all expression lists and contents", "why_tests_cant": "unbounded lists", "anchors": ["commands/edit.go:evaluateExpressionsOnContent"]}
{"id": "C59", "title": "What current-column returns", "statement": "current-column, documented as 0-based, returns for a point on a character other than a newline one more than the number of bytes between the start of the line and point, for a point on a newline 0, and only at the end of the buffer the number of bytes between the start of the line and point (refuted expectation: it is the 0-based column).", "quantifier": "all contents and points", "why_tests_cant": "all states", "anchors": ["edlisp/builtin_current_column.go"]}
{"id": "C60", "title": "buffer-size, point-max and length count bytes consistently", "statement": "point-max = buffer-size + 1, buffer-size = length (buffer-substring 1 -1), point-min = 1, for every buffer.", "quantifier": "all buffers", "why_tests_cant": "all states", "anchors": ["edlisp/builtin_buffer_size.go", "edlisp/builtin_point_max.go", "edlisp/builtin_point_min.go", "edlisp/builtin_length.go"]}
{"id": "C61", "title": "Output of 'texted parse --output-format json' under --json", "statement": "What the parse command prints as JSON is refused by 'edit --json' for every program: a single command because edit --json needs an array of arrays, several because they are printed as a stream of arrays, an empty program because nothing is printed (the README's own --json example is refused as well). Wrapping the commands in one array is accepted and runs the same program (C37).", "quantifier": "all commands", "why_tests_cant": "all commands", "anchors": ["edlisp/writer/json.go:Write", "edlisp/parser/json.go:ParseJSONString", "commands/parse.go"]}
{"id": "C62", "title": "In-place editing treats each file on its own and reports success only if all were edited", "statement": "With --in-place on different files (and backups that collide with none of them), every run either fails before touching anything or treats each file from its own contents at the start: edited, left as it was, or (failed write) holding a beginning of the output; the command succeeds exactly if every file was edited.", "quantifier": "all file lists, contents, scripts, suffixes and I/O failures", "why_tests_cant": "all combinations of failures over unbounded file lists", "anchors": ["commands/edit.go:processFilesInPlace", "commands/edit.go:runEdit"]}
{"id": "C63", "title": "Documented parameters are what the functions enforce", "statement": "For every documented function and every argument list: a call whose arguments do not fit the documented parameters (count or types) is refused with an error that begins with the function's name and says what it expects, and neither text, point nor mark changes; a call whose arguments fit can fail only because a search finds nothing, a regular expression does not compile, a position is out of range or there is no match or mark to work with. The one exception is concat, whose documentation and behaviour are stated separately.", "quantifier": "all documented functions, argument lists and buffers", "why_tests_cant": "unbounded argument lists times all functions and states", "anchors": ["edlisp/documentation.go", "edlisp/builtin_*.go"]}
{"id": "C64", "title": "'texted test' reports every selected test, counts correctly, and its exit status tells whether all passed", "statement": "The command runs the given files (or those in tests/) whose base name matches one of the --include patterns, reports each in order with its reason if it fails, ends with the right counts, and exits with 0 exactly if every selected test passes; --quiet, --verbose, --fail-only and --trace never change the exit status. --trace only adds, before everything else, the steps of each program with the buffer after each. Findings: --verbose changes nothing at all; if no file is selected the command succeeds; an invalid pattern is reported only when it is tried. Without files the tests are those in tests/ whose names end in .xml, in ascending order. A file that cannot be opened or read or that is no test file fails, with that reason, and the others are run all the same.", "quantifier": "all file lists, test files, patterns and flags", "why_tests_cant": "all combinations of files, verdicts and flags", "anchors": ["commands/test.go:runTests", "commands/test.go:printTestResult", "edlisp/testing/testing.go:RunTestFileWithTrace", "commands/test.go:createTraceCallback", "edlisp/testing/testing.go:ParseTestFile"]}
{"id": "C65", "title": "The buffer boundary and mark commands do exactly what they say, alone and combined", "statement": "beginning-of-buffer and end-of-buffer set point to 1 and to one past the last byte; set-mark, and set-mark-command without argument, set the mark to point; set-mark-command n sets it to n, unclamped; mark-whole-buffer is beginning-of-buffer, set-mark, end-of-buffer; none touches anything else. point and mark report the positions exactly below 2^53. After mark-whole-buffer the region is the whole text: its text can be read, deleted and replaced as a whole. After set-mark and a move to a boundary, the region is the text between. Findings: replace-region on the marked whole of an empty buffer silently loses the new text; the mark is a number and does not follow the text when text before it is edited.", "quantifier": "all buffers, points, marks and positions", "why_tests_cant": "all texts, positions and combinations", "anchors": ["edlisp/builtin_beginning_of_buffer.go", "edlisp/builtin_end_of_buffer.go", "edlisp/builtin_mark_whole_buffer.go", "edlisp/builtin_set_mark.go", "edlisp/builtin_set_mark_command.go", "edlisp/builtin_point.go", "edlisp/builtin_mark.go"]}
{"id": "C66", "title": "What the regular expression functions find and replace", "statement": "For every pattern the regexp engine accepts: string-match returns the 0-based offset of the leftmost match or nil; re-search-forward moves point to the end of the leftmost match in the text from point on, taken by itself, or fails without effect; re-search-backward moves to the last of the successive non-overlapping leftmost matches in the text before point, and none begins behind it, or fails without effect; replace-regexp-in-string replaces exactly the successive non-overlapping leftmost matches and leaves everything else: each match is replaced by the replacement text, in which $$ stands for $, $name and ${name} (longest name) for the group with that number or name (nothing if there is none), and any other $ for itself; a text whose every $ is doubled is inserted as it is. For a pattern the engine refuses, string-match looks for it literally and the others fail without any effect. Findings: a price such as $5.00 used as a replacement loses its digits and $0px is a reference to a group 0px; re-search-backward misses a closer match that overlaps an earlier one, and '^' matches at point in the middle of a line, because the searched text is cut at point.", "quantifier": "all buffers, points, patterns and strings, and every engine meeting Go's leftmost-match contract", "why_tests_cant": "unbounded patterns, texts and positions", "anchors": ["edlisp/builtin_string_match.go", "edlisp/builtin_re_search_forward.go", "edlisp/builtin_re_search_backward.go", "edlisp/builtin_replace_regexp_in_string.go"]}
{"id": "C67", "title": "texted parse converts a script into an equivalent one", "statement": "texted parse never crashes: it fails before writing anything if a format is unknown (naming it) or the input does not parse, and otherwise writes the parsed program in the output format. The S-expression output of every accepted script, however odd its symbols and numbers, reads back as the same program, has the same effect on every text, and is a fixed point of parse, provided its lines stay below 64 KiB. The JSON output of every accepted JSON input is never refused, reads back as the same program and is a fixed point. The JSON writer refuses exactly the programs with a NaN or an infinity. The shell output of a program of flat commands reads back as the same program if no line begins or ends in white space. Findings: the S-expression form of a legal line can exceed the line limit; JSON to S-expression can silently change the program (blanks in names, bare numbers); a symbol starting with a no-break space loses it in shell form; when the writer fails, the commands before the failing one are already on standard output. JSON input is accepted exactly if it is a sequence of JSON texts that are commands, bare strings (symbols) or bare numbers, and is read as just those; JSON output of every program with finite numbers is such a sequence, one text per instruction. All other JSON input is refused with a message that names the first wrong value likewise (an object is shown with its fields in the order of their names, the last of each name). The shell writer writes exactly one line for each instruction up to the first that is no list or has a list in it, and says which of the two is the case.", "quantifier": "all format names, inputs and programs", "why_tests_cant": "unbounded scripts, symbols, numbers and nesting", "anchors": ["commands/parse.go runParse, parseInput, writeOutput", "edlisp/writer/writer.go", "edlisp/parser/linebased.go ParseString, ParseReader", "edlisp/parser/json.go ParseJSONReader"]}
{"id": "C68", "title": "What arrives of the values of -e", "statement": "texted edit receives each value of -e, and texted test each value of --include, as one record of comma-separated values. Values without double quote, comma and line end arrive unchanged, one expression each; a comma cuts a value into several expressions; a value whose first double quote is neither at its start nor right after a comma is refused, with an error naming it and before any file is touched; of a value with several lines only the first non-empty one is used; an empty value counts as none. A value written as a quoted CSV field (quotes doubled) delivers any expression without CR exactly, also with commas, quotes and newlines. Reading the option a second time (GetStringSlice) never fails and changes nothing but CR LF to LF. Every value either is a record or is refused for exactly one reason, and the first value that is none is the one the message names. Findings: every expression with a string literal, in any of the three syntaxes and including the README's own examples, is refused when passed as it is; lines after the first are silently dropped.", "quantifier": "all lists of values and all other flags", "why_tests_cant": "unbounded values, quotes and commas in any place", "anchors": ["commands/edit.go:163 StringSliceP(\"expression\"), :213 GetStringSlice", "commands/test.go:57 StringSliceVarP(include)", "go.mod (github.com/spf13/pflag v1.0.6)", "README.md:51,137"]}
{"id": "C69", "title": "Which words are numbers, and which numbers", "statement": "A plain word in a script is a number exactly if it is a decimal or hexadecimal floating-point text (optional sign, digits with optional point, exponent, underscores only between digits or after 0x) or spells infinity or NaN in any case; its value is then the float64 nearest to the exact rational number the text denotes, ties to even, with the text's sign. A text whose number rounds to infinity is not a number. Every other plain word is a symbol. Exponents below 100000 are read exactly. Finding: inf, Infinity and nan are numbers and can name nothing.", "quantifier": "all words", "why_tests_cant": "unbounded digits, exponents and underscores; correct rounding for all of them", "anchors": ["edlisp/parser/linebased.go:parseToken (strconv.ParseFloat)", "edlisp/number.go"]}
{"id": "C70", "title": "Which syntax a script is read in", "statement": "The shorthand flags of texted edit mean the format option: --shell wins over --sexp, --sexp over --json, each over --format, and every run is the run with only --format set to what is asked for. An unknown format is refused, naming it, before anything is read or written. JSON is read as JSON; shell and sexp are read by the same parser. Finding: --sexp (\"force S-expression syntax\") forces nothing: without verbose messages it gives the same run as --shell for all scripts, expressions, files and other flags. The name of the script file (.elsh, .el, .json) does not choose the format.", "quantifier": "all flags, scripts, expressions and files", "why_tests_cant": "all flag combinations and all scripts", "anchors": ["commands/edit.go:186-199 runEdit", "texted.go ExecuteScriptWithFormat, IsValidFormat", "commands/edit.go:338 evaluateExpressionsOnContent"]}
{"id": "C71", "title": "What the words of a command line mean", "statement": "Behind the name of a subcommand, options and operands may be given in any order: `--name`, `--name=value`, `--name value`, clusters of one-letter options `-abc`, `-o value`, `-ovalue`, `-o=value`; behind `--` every word is an operand; a word that does not begin with `-`, or is just `-`, is an operand. Every command line can be read in at most one way, every readable one gives exactly one set of arguments (the last value of a string or boolean option counts, all occurrences of a repeatable one), and the command runs with those. Any other command line (unknown option, missing or malformed value) is refused before anything is read, written or printed, with a message that tells the first thing wrong: the unknown option by name or letter, the option that needs a value, or the value with the option it was given to and the reason; the help option prints the help and does nothing else. The script is taken verbatim in each of its five spellings. `texted edit -i -s SCRIPT -- FILES` runs that script on those files, for all scripts and names. Findings (docs/cli.md): of several -s only the last counts, there is no --version, a SCRIPT operand is a file, `-` is a file of that name. The command lines of the README stand for the arguments they seem to (except -e with string literals: C68).", "quantifier": "all lists of words, all scripts and file names", "why_tests_cant": "unboundedly many words, clusters and values; ambiguity is a statement about all readings", "anchors": ["commands/edit.go:NewEditCommand", "commands/parse.go:NewParseCommand", "commands/test.go:NewTestCommand", "commands/doc.go:NewDocCommand", "docs/cli.md"]}
{"id": "C72", "title": "What a call of the MCP server does with its arguments, and what the client sees", "statement": "Under every prefix the three tools have three different names, prefix + name; a call of another name is refused. edit_file acts exactly if `script` is a string and `files` a non-empty list of strings: the script is applied once to the files in their order, or in a loop if `loopUntilError` is true, a number other than zero, or one of the strings 1 t T true True TRUE; any other call is answered with an error at once, and nothing is read or written. An answer of edit_file is marked as an error exactly for such refused calls: failed edits are reported unmarked (finding). texted_eval and texted_doc touch nothing; options of a wrong type are ignored. The client reads the text of an answer exactly if it is UTF-8: each byte that belongs to no character becomes U+FFFD. Findings: commands count bytes, so texted_eval can answer with a text that is not what the script produced; a panicking script ends the server. Since a request is a JSON text, scripts and file names of calls are always UTF-8; the answer travels as a JSON string that stands for exactly the text shown.", "quantifier": "all prefixes, tool names, JSON arguments, file systems and texts", "why_tests_cant": "all argument trees and all byte sequences", "anchors": ["commands/mcp.go:runMCPServer", "tools/edit_file.go:EditFileHandler", "tools/texted_eval.go:TextedEvalHandler", "tools/texted_doc.go:TextedDocHandler"]}
{"id": "C73", "title": "When UTF-8 text stays UTF-8 text", "statement": "Positions and counts are bytes, so a script can cut a character in two. It cannot if its strings are UTF-8 and it (1) uses no function that works with numbers of bytes (forward-char, backward-char, goto-char, delete-char, delete-backward-char, set-mark-command, kill-line, backward-kill-word, buffer-substring, substring), (2) uses the mark and the recorded match only if no edit has happened since they were set, (3) does not ask for the beginning of a line in an empty buffer: then UTF-8 text stays UTF-8 text, whether the script succeeds or fails, and a file edited with it holds UTF-8 text. Each condition is needed: for every one of these functions, a stale mark, a stale match and the empty buffer there is a script that breaks a character. Strings of JSON scripts are always UTF-8; strings of other scripts are, unless they use \\x or octal escapes. No edit brings in a byte that was neither in the text nor in an argument; ASCII text and ASCII strings give ASCII text whatever functions are called. The same holds of every file edited with success by EditFiles or on the command line; ASCII files stay ASCII at every moment of a run, even if a write fails or the command crashes (a failed write can cut a non-ASCII character in two).", "quantifier": "all UTF-8 texts, all programs and scripts, all regular expression engines that match character by character", "why_tests_cant": "all texts, all programs and all positions", "anchors": ["edlisp/buffer.go", "edlisp/builtin_insert.go", "edlisp/builtin_replace_match.go", "edlisp/builtin_delete_region.go", "edlisp/eval.go:EvalWithTrace", "texted.go:ExecuteScriptWithFormat"]}
{"id": "C74", "title": "What the documentation shows", "statement": "`texted doc NAME` shows all that is documented of the function last registered under that name: name, summary, description, every parameter with its type and whether it can be left out, every example (starting text, command, result), the category and every reference, in that order; a name without documentation is refused. texted_doc shows the same except which parameters can be left out and the starting texts and results of the examples. Without a name both list exactly the documented functions (of the category, if one is given), each once, in alphabetical order, with their number; verbose lists give every function with its summary under its category, and the heading over a category is its name with the first letter of every word in upper case and nothing else changed. For a category without functions texted_doc offers all the categories there are, each once, in alphabetical order.", "quantifier": "all sequences of registrations, all names, categories and flags, all orders of map iteration", "why_tests_cant": "ranges over all documentation entries and all orders in which a map can be iterated", "anchors": ["commands/doc.go:showFunctionDoc", "commands/doc.go:listFunctions", "tools/texted_doc.go:formatFunctionDoc", "tools/texted_doc.go:formatFunctionList"]}
{"id": "C75", "title": "How numbers are printed", "statement": "Printing a number loses nothing and adds nothing: a whole number that fits in an int is printed with all its digits and no exponent; every other finite number is printed as the one decimal number that is read back as this number, has the fewest digits of all such numbers (never more than 17, never ending in zero) and is nearest to it among those. The exponent form is used for numbers below 0.0001 and from 1000000 on (in JSON: below 0.000001 and from 10^21 on). Zeros keep their sign; NaN and infinities print as NaN, +Inf and -Inf.", "quantifier": "all float64 numbers", "why_tests_cant": "there are 2^64 float64 numbers, and the boundary cases lie where the spacing of float64s changes", "anchors": ["edlisp/number.go:String", "edlisp/writer/json.go:WriteValue"]}
{"id": "C76", "title": "Which subcommand runs", "statement": "`texted WORDS...` runs exactly the subcommand named by the first word that is neither an option (a word beginning with `-`) nor the word after an option written without `=` as `--name` or `-x`; the subcommand gets all other words, in order. `texted edit WORDS...` therefore does exactly what the edit command does with WORDS, and exits with 0 if that gives no error and 1 otherwise. If the word is no subcommand, the run is refused with status 1 before anything is read, written or printed. No file changes unless edit or mcp is named that way. Without a name (no words, or `--` first) the help is printed with status 0, even for `texted -- edit ...`. The expectation that switches may precede the subcommand is false: in `texted --dry-run edit -s S f` the word edit is taken for the value of --dry-run.", "quantifier": "all lists of command-line words, all worlds and runs", "why_tests_cant": "the choice depends on every word before the name; only finitely many command lines can be tried", "anchors": ["cmd/texted/main.go:main", "commands/edit.go:NewEditCommand", "commands/parse.go:NewParseCommand", "commands/test.go:NewTestCommand", "commands/doc.go:NewDocCommand", "commands/mcp.go:NewMCPCommand"]}
{"id": "C77", "title": "How test files are read", "statement": "`texted test` accepts a file exactly if, put between <testcase> and </testcase>, it is XML of a precise grammar (elements properly nested, attributes quoted, text of legal UTF-8 characters with the five named and the numeric references, comments, CDATA sections, instructions, directives). The texts of the test are then: for each of buffer, input, output, result, error the text of the last element with that (local) name, without the text of elements inside it, with references replaced; nothing if there is none. Everything else is skipped. Escaped text is read back exactly, in any order of the elements. Carriage returns survive only as references: a file without `&` gives texts without any. </testcase> in the file ends it, whatever follows. The attribute lang matters only on result: input is always shell. Otherwise the test fails, and the report says whether the file could not be opened, not read, or not parsed.", "quantifier": "all file contents, all test cases", "why_tests_cant": "the file is arbitrary text; the reader must accept and decode infinitely many nestings, references and line ends", "anchors": ["edlisp/testing/testing.go:ParseTestCase", "edlisp/testing/testing.go:ParseTestFile", "edlisp/testing/testing.go:TestCase"]}
{"id": "C78", "title": "What `texted edit` prints", "statement": "--verbose only changes what is printed: the exit and the files are those of the run without it, at the end and wherever the run is interrupted; so does --quiet when a script is applied. With --quiet nothing is printed except the result itself (when that goes to standard output). Editing in place prints, for each file in order, the announcements of --verbose and then one line that says truly what became of the file (edited; not read; backup not made; script failed; not written), and the command fails exactly if one of these lines reports a failure. A dry run prints for each file that it would be edited and where the backup would go, and changes nothing. Editing standard input or a single file prints the announcements and then the result. Two consequences a user may not expect: with --verbose the announcements stand in front of the result on standard output, so the output is not the edited text; --quiet also hides which files failed and why.", "quantifier": "all flags, scripts, files and failures of the operating system, all crash points", "why_tests_cant": "the messages must be true of every combination of files, scripts and failing system calls", "anchors": ["commands/edit.go:runEdit", "commands/edit.go:processFilesInPlace", "commands/edit.go:processStdin", "commands/edit.go:processSingleFileToOutput", "commands/edit.go:processSingleFileToStdout"]}
{"id": "C79", "title": "Everyday scripts, from the command line to the files", "statement": "A script written in the everyday way (names, string literals, numbers, commands ended by ; or a line end) is read as exactly those commands. 'search-forward OLD; replace-match NEW' replaces the first occurrence of OLD and nothing else, and fails if there is none; search-forward + insert inserts right behind the first occurrence; insert alone puts text at the beginning, end-of-buffer + insert at the end, goto-line N + insert in front of line N; search-forward + delete-line deletes exactly the whole line of the first occurrence. `texted edit -i -s SCRIPT -- FILES...` exits 0 only if every file now holds the result of the script on its contents; no other file is touched; at every moment (crash) each file holds its old contents or a beginning of its result, and the files are finished one after the other; if all files exist, the script succeeds on them and the system does not fail, it exits 0. `texted edit -s SCRIPT -- FILE` prints the result and changes no file. With --backup SUFFIX the original of every file is, at every moment (crash), in the file or in its backup, and after exit status 0 the backup holds the original; with -n no file is touched. Any other command line that is accepted does what its arguments stand for.", "quantifier": "all scripts of that form below 64 KB, all texts and contents, all lists of different files, all failures and crash points", "why_tests_cant": "The composition of argument parsing, script parsing, evaluation and file writing has to be right for every text, script and failure; a test fixes one of each.", "anchors": ["cmd/texted/main.go:main", "commands/edit.go:runEdit", "commands/edit.go:processFilesInPlace", "texted.go:ExecuteScriptWithFormat", "edlisp/parser/linebased.go:ParseReader"]}
{"id": "C80", "title": "What errors of running scripts say", "statement": "Every error message of running a script is true and one of a known list. Called with arguments that do not fit its documentation, a function refuses, changes nothing, and says: if the number is wrong, how many it takes and how many there were; otherwise the type of a parameter whose argument has another type, at the position named (concat: the position of the first argument that is not a string). Called as documented, only searches (search failed), replace-match (no previous search, invalid search match positions) and functions compiling a regular expression (invalid regexp: what the compiler said) can fail. An unknown function is named, quoted, and really occurs as a call in the instruction. The error of a script says 'parsing script' if it cannot be read, otherwise what was wrong, the index of the first instruction that failed (from 0), the instruction as it is written, and point and mark at that moment; the same for JSON scripts.", "quantifier": "all 50 functions, all argument lists, buffers, instructions of any nesting, scripts and texts", "why_tests_cant": "A test checks one message; that no other message can appear and that each is true of the arguments it is about holds for every function, every argument list and every nesting of calls.", "anchors": ["edlisp/eval.go:evalExpression", "edlisp/error.go:ExecutionError.Error", "edlisp/builtin_substring.go:BuiltinSubstring", "edlisp/builtin_concat.go:BuiltinConcat", "texted.go:ExecuteScript"]}
{"id": "C81", "title": "What the README's recipes do", "statement": "For every text: 'mark-whole-buffer; replace-region NEW' gives NEW (an empty text stays empty). 'search-forward OLD; beginning-of-line; insert NEW' inserts in front of the line of the first OLD. 'search-forward A; set-mark; search-forward B; replace-region NEW' replaces what follows the first A up to and with the first B behind it (A stays). 'search-forward A; beginning-of-line; set-mark; search-forward B; forward-char; delete-region' deletes from the beginning of A's line to the first B behind it and one byte more. 'goto-line M; set-mark; goto-line N; delete-region' deletes exactly the whole lines between (a number beyond the last line means the last, which stays). 're-search-forward P; replace-match NEW' replaces a leftmost non-empty match by NEW as it is. 'search-forward OLD; mark-word; replace-region NEW' replaces the letters and digits touching the end of the first OLD, so exactly OLD if that is a whole word - but if the text ends with OLD the whole text is replaced by NEW; likewise 'goto-char N; mark-word; replace-region NEW' at or beyond the end. If a text searched for does not occur, the script fails with 'search failed'. Counterexamples to the documentation (docs/spec.md's first example, comments, single quotes, a JSON script of one command) are proved too.", "quantifier": "all ways to write these scripts (any blanks, line ends or semicolons, literals), all texts, all parameters", "why_tests_cant": "A test checks a recipe on one text; that nothing else in the text changes, and which occurrence is affected, has to hold for every text - and the case that destroys the text is easily missed.", "anchors": ["README.md", "docs/spec.md", "edlisp/builtin_mark_word.go:BuiltinMarkWord", "edlisp/builtin_replace_region.go:BuiltinReplaceRegion", "texted.go:ExecuteScriptWithFormat"]}
{"id": "C82", "title": "Numbers as arguments count by their integer part", "statement": "Every function uses a number only by its integer part: the number without its fraction, towards zero (2 of 2.9, -2 of -2.5), if that fits in 64 bits. For every function, and for whole scripts with calls nested to any depth, changing the fractions of the numbers used as arguments changes neither the result, nor the buffer, nor whether and at which instruction and with which message it fails. Every finite number between -2^63-1 and 2^63 has an integer part.", "quantifier": "all finite numbers whose integer part fits in 64 bits, all 50 functions (and unknown ones), all scripts and buffers", "why_tests_cant": "There are 2^64 numbers; a test tries goto-char 2.5 at best, and one function rounding differently is not noticed.", "anchors": ["edlisp/builtin_goto_char.go:BuiltinGotoChar", "edlisp/builtin_buffer_substring.go:BuiltinBufferSubstring", "edlisp/builtin_substring.go:BuiltinSubstring", "edlisp/builtin_set_mark_command.go:BuiltinSetMarkCommand", "edlisp/builtin_kill_word.go:BuiltinKillWord"]}
{"id": "C83", "title": "What the MCP tool descriptions promise", "statement": "The promises of the tool descriptions hold as follows. Rehearsal: when nothing goes wrong with the file itself, edit_file turns the contents c of a file into t exactly if texted_eval, asked for the buffer, answers t for input c and the same script, and fails on it exactly if texted_eval does, with the same error. The given line-replacement and delete-between scripts do what is said, on every text, in any spelling; upcase/downcase/concat answer with the quoted string; the text-analysis script answers with the number of bytes. `search-forward OLD; point` answers with the position behind the first OLD (the description says: where it was found). search-backward as first command always fails. A malformed regular expression is an error on every non-empty text and is not searched literally. Contrary to the descriptions, a script in JSON can never succeed with edit_file, texted_eval or texted edit: the text of a JSON script, and any text that starts with `[`, fails on every content. The documented examples that fail are refuted one by one. The categories are exactly eight, two more than described.", "quantifier": "all texts, all patterns and replacements, all scripts spelling the described commands, all JSON texts, all file systems and crash points of the edit", "why_tests_cant": "The descriptions are what a model calling the tools goes by; they speak of every text and every file. Examples on one text do not show that the rehearsal predicts the edit, nor that no JSON script at all can work.", "anchors": ["tools/edit_file_description.txt", "tools/texted_eval_description.txt", "tools/texted_doc_description.txt", "tools/edit_file.go:EditFileHandler", "tools/texted_eval.go:TextedEvalHandler", "tools/texted_doc.go:TextedDocHandler", "script.go:ExecuteScript"]}
{"id": "C84", "title": "The declared parameters of the MCP tools", "statement": "For each of the three tools, under every prefix: only the declared parameters matter (two calls that give the same for each declared parameter have the same possible runs, whatever else they give); a required parameter that is missing or of another type makes the call fail at once, without touching any file; null for an optional parameter is the same as leaving it out; a call that follows the declaration is refused only for the reasons the declaration cannot express: an empty list of files or an item that is no string (edit_file), an output other than buffer and expression (texted_eval); texted_doc answers with an error exactly if a function and a category are both named, or the function is not documented, or the category has no functions, or nothing is documented.", "quantifier": "all prefixes, all JSON arguments, all registries, all files", "why_tests_cant": "Clients and language models produce arbitrary arguments; the declaration and the handler are written separately, and tests cannot compare them on all arguments.", "anchors": ["tools/edit_file.go:NewEditFileToolWithPrefix", "tools/texted_eval.go:NewTextedEvalToolWithPrefix", "tools/texted_doc.go:NewTextedDocToolWithPrefix", "commands/mcp.go:runMCPServer"]}
{"id": "C85", "title": "The function reference", "statement": "Every function of the program has an entry in docs/functions.md. Of the entries exactly 21 (list, nth, first, rest, append, + - * / = < > <= >=, progn, if, when, unless, and, or, not) name functions that do not exist: a call of one fails at once, without evaluating its arguments or changing anything, and a script in which one of them occurs as a function, nested however deep, never succeeds. All other entries, except mark-word, line-number-at-pos, concat and length of a list, give the parameters exactly: used otherwise the function refuses, saying what it expects; used as described it fails only because a search found nothing, nothing was searched before, or a regular expression is malformed.", "quantifier": "all 72 entries, all argument lists, buffers, scripts and texts", "why_tests_cant": "A test of a few functions does not show that the reference is complete, nor that no script with an unimplemented function can succeed, nor that every other use is refused.", "anchors": ["docs/functions.md", "edlisp/eval.go:evalExpression", "edlisp/eval.go:NewDefaultEnvironment", "edlisp/builtin_mark_word.go:BuiltinMarkWord", "edlisp/builtin_line_number_at_pos.go:BuiltinLineNumberAtPos"]}
{"id": "C86", "title": "Names that lead to the same file", "statement": "Names are relative, may be links, and several may lead to one file. EditFile changes only the file its name leads to, with the outcomes it has for a name of its own. EditFiles edits the files its names lead to one after the other, each as it is then: if all lead to one file and every result is a success, the script was applied once per name, each time to the output of the time before. `texted edit --dry-run` changes no file, without --in-place only the file the output name leads to changes (it may be the input itself), and with --in-place only those the names and backup names lead to. If those are all different files, in-place editing treats each on its own, and with --backup the original is at every moment in the file or in the backup. If a backup name leads to the file itself, --backup destroys the contents before the script is even looked at. Concurrent requests whose names lead to different files do not affect each other.", "quantifier": "all ways in which names may lead to files, all commands, scripts, contents, failures, crash points and interleavings", "why_tests_cant": "Which names are the same file depends on the directory and its links; the property must hold for every such arrangement, every failure and every crash point.", "anchors": ["texted.go:EditFile", "texted.go:EditFiles", "commands/edit.go:processFilesInPlace", "commands/edit.go:processSingleFileToOutput", "commands/edit.go:runEdit"]}
{"id": "C87", "title": "Other programs changing files meanwhile", "statement": "While editors, formatters or other users change files at any moments. If they leave alone the files a call uses, its outcome is as if nobody else were there: EditFile and EditFiles have the outcomes they have alone, `texted edit --in-place` treats every file on its own and prints what it would print alone, and with --backup the original is at every moment in the file or in its backup. Whatever the others do, --dry-run, editing without --in-place and --output, and a script that always fails change no file themselves, and a success of EditFile means that at some moment during the call the file held a text on which the script succeeds. If others change the same file: what they save between the reading and the writing is lost without an error, and since --backup reads the file twice, what they save between the two readings is edited but not backed up.", "quantifier": "all behaviours of the other programs, all schedules, scripts, contents, failures and crash points", "why_tests_cant": "When other programs act is not under the control of a test; the property must hold for every schedule and for everything the others may do.", "anchors": ["texted.go:EditFile", "texted.go:EditFiles", "commands/edit.go:processFilesInPlace", "commands/edit.go:runEdit"]}
{"id": "C88", "title": "The list functions of the Go API", "statement": "For programs that use texted as a library: Len, IsEmpty, First, Get, Rest, Append, NewList and NewEmptyList compute what they say (nil outside the list), and whatever is made with them, every value made before stands for what it stood for before. What Append returns shares no memory with anything older: assignments to its elements change nothing else, nor do assignments through older slices change it, and Go's own append on the elements of a list copies them if the list was made without NewList(xs...). Equal depends only on what values stand for, however their memory is shared, and ends. But Rest is not a copy: an assignment to its elements changes the list it came from; NewList(xs...) takes over the slice, and with room behind it two uses of Go's append on the elements overwrite each other.", "quantifier": "all values, all ways in which their memory is shared, all sequences of calls, all assignments", "why_tests_cant": "Aliasing bugs show only for particular histories of calls and assignments; the property must hold for all of them.", "anchors": ["edlisp/list.go:NewList", "edlisp/list.go:Rest", "edlisp/list.go:Append", "edlisp/list.go:Get", "edlisp/list.go:First", "edlisp/equal.go:Equal", "edlisp/doc.go"]}
{"id": "C89", "title": "Functions and callbacks of embedding programs", "statement": "For programs that call Eval or EvalWithTrace with an environment and a callback of their own, which may keep data of their own, change the environment and edit the buffer: instructions run one after the other, the callback runs on the buffer each of them left, the next instruction on what the callback left, no callback after a failing instruction. A call uses the function its name had when the call began. A callback that only looks changes nothing and sees the instructions and buffers of C27. A program depends only on the functions it names, and does not succeed if it names one that is not registered. What all functions a program names keep true, and the callback too, no program can make false; if only built-in functions that edit nothing are registered, no program changes the text.", "quantifier": "all environments, functions, callbacks, host data, programs and buffers", "why_tests_cant": "The functions are written by the users of the library; the property must hold for all of them and for every program.", "anchors": ["edlisp/eval.go:EvalWithTrace", "edlisp/eval.go:Eval", "edlisp/eval.go:Environment", "edlisp/eval.go:TraceCallback", "edlisp/eval.go:BuiltinFn"]}
{"id": "C90", "title": "The documentation registry used by several goroutines", "statement": "RegisterDocumentation, GetDocumentation, GetAllDocumentation, GetDocumentationByCategory, GetCategories and GetRegisteredFunctionCount may be called at the same time by any number of goroutines. The map is never changed while another goroutine looks at it. Every call takes effect at one moment between its start and its return: a registration is made at that moment and only then, a question gets the answer that is right at that moment (alphabetical, every name once with what was registered last under it). Nothing is registered without a call. No deadlock; if no new calls come, all calls return; questions cannot keep a registration out for ever.", "quantifier": "all numbers of goroutines, all sequences of calls, all interleavings of their actions, all orders of map iteration", "why_tests_cant": "Interleavings and the order of map iteration are chosen by the scheduler and the runtime; a test sees few of them.", "anchors": ["edlisp/documentation_registry.go:RegisterDocumentation", "edlisp/documentation_registry.go:GetDocumentation", "edlisp/documentation_registry.go:GetAllDocumentation", "edlisp/documentation_registry.go:GetDocumentationByCategory", "edlisp/documentation_registry.go:GetCategories", "edlisp/documentation_registry.go:GetRegisteredFunctionCount", "edlisp/documentation_registry.go:registryMutex"]}
{"id": "C91", "title": "Permissions", "statement": "Whatever a program does, every file that existed is still there, with its permissions and owner; every file it makes has the permissions rw-r--r-- without those of the umask. A file the user may not write is never changed. EditFile, EditFiles, in-place editing and --output report a failure if there is a file the user may not read or may not write (with --backup, also if the backup file exists and may not be written; then the file is not edited). If the user may read and write the files, everything goes as without permissions. The claim that a private file stays private is false with --backup: the backup is a copy everybody may read under the usual umask.", "quantifier": "all permissions, owners, umasks, files, scripts and moments of a run", "why_tests_cant": "The combinations of permissions, files, scripts and moments are unbounded; tests run as one user with one umask.", "anchors": ["texted.go:EditFile", "texted.go:EditFiles", "texted.go:writeFile", "commands/edit.go:processFilesInPlace", "commands/edit.go:processSingleFileToOutput"]}
{"id": "C92", "title": "Interrupted runs and running the command again", "statement": "A run of `texted edit --in-place --backup` that is interrupted anywhere leaves each file and its backup in one of exactly three states: both as they were; the file as it was and a beginning of it in the backup; a beginning of the result in the file and all of the original in the backup (and all three do occur). If there was no backup before, the original can be told from these two texts unless the script only adds something at the end of a text: it is the file if there is no backup or the backup is a proper beginning of the file that the script cannot have turned into it, else the backup; putting it back after each interruption is safe any number of times. For scripts that append, no procedure can tell the original. Any number of interrupted runs touch no other file, and each file always holds its old contents or a beginning of what the script makes of what it held before. Running the command again after an interruption that left no file half written ends as without interruption, if the script fails on its own results or leaves them as they are; search and replace does if no OLD is left. Negative: running the command again after an interruption in the middle of a write, with no failure at all, destroys the original although --backup was given: the backup then holds the truncated text.", "quantifier": "all argument records with --in-place (and --backup), all scripts, worlds, all runs with all failures, all points of interruption, and all histories of any number of runs", "why_tests_cant": "The points of interruption and the histories of runs are unbounded; a test sees the files after complete runs.", "anchors": ["commands/edit.go:processFilesInPlace", "commands/edit.go:runEdit"]}
{"id": "C93", "title": "The built-in functions as they are written in Go", "statement": "Each of the fifty built-in functions, as its text stands in edlisp/builtin_*.go (translated statement by statement into a small Go with 64-bit wrapping ints, index and slice panics and short-circuit conditions), returns the value or the error and leaves the buffer that the property statements C01–C92 use, and panics exactly if they say so, for every buffer and all arguments that fit into memory; no expression is ever evaluated that has no meaning (a wrong type, an operation on nil). No loop evaluates its condition more often than the text has bytes plus one, except mark-line, delete-line and kill-line, whose loop runs once for each line asked for however short the text is: (kill-line 1099511627776) on a text of five bytes goes through 1099511627776 rounds. Every buffer that calls lead to from a new buffer meets the conditions, so a whole script does the same with the functions as written as with the definitions.", "quantifier": "all fifty functions, all arguments, all buffers (with int point and mark), all texts, arguments and match lists shorter than 2^62, all bounds on loop rounds; all scripts and texts", "why_tests_cant": "The equality ranges over all inputs and buffers, including points outside the text and overflowing counts; a test cannot tell a loop that takes 2^40 rounds from one that never ends.", "anchors": ["edlisp/builtin_*.go", "edlisp/eval.go:Insert", "edlisp/helpers.go:isLetter"]}
{"id": "C94", "title": "The parsers, the evaluator, Equal and the writers as they are written in Go", "statement": "ParseReader, ParseString, ParseSexp, ParseFormat, ParseJSONString, ValidateJSONFormat, Eval, EvalWithTrace, Equal, the String methods of the four kinds of values, the error that stops a script and its message, and the conversions of the JSON and shell writers, as their texts stand in the Go files (translated statement by statement, with every function they call), always end; they return the values and the errors that the property statements use, crash exactly if those say so, and change nothing but the buffer and the calls of the trace callback. In particular ParseString returns the program that the grammar of scripts (C42) gives the text, and fails exactly if it gives none; an expression is evaluated as the rules of evaluation (C26) say; Equal is sameness of values (C44); what String prints for a list ParseString reads back; and a script run from its text on, with the built-in functions as written in Go too (C93), does what the model says.", "quantifier": "all texts below 2^60 bytes, all values and programs below 2^60 parts, all environments, buffers and decoded JSON values; all bounds on loop rounds and call depth", "why_tests_cant": "The equality ranges over all texts, values and programs of any nesting; the functions call each other recursively and their loops have no fixed number of rounds, so termination and agreement need induction.", "anchors": ["edlisp/parser/linebased.go", "edlisp/parser/json.go:ParseJSONString", "edlisp/parser/json.go:ValidateJSONFormat", "edlisp/eval.go:Eval", "edlisp/eval.go:EvalWithTrace", "edlisp/eval.go:evalExpression", "edlisp/error.go", "edlisp/equal.go:Equal", "edlisp/list.go:String", "edlisp/number.go:String", "edlisp/writer/json.go:valueToJSON", "edlisp/writer/shell.go:valueToShellString"]}
{"id": "C95", "title": "Editing files, the edit and parse commands, the writers and the tools as they are written in Go", "statement": "ExecuteScript, ExecuteScriptWithFormat, IsValidFormat, EditFile, EditFileWithFormat, EditFiles, EditFilesWithFormat, the three script writers and NewWriter, the whole of the edit command (flags, standard input, single files, in-place editing with backups, expressions), the whole of the parse command, and the handlers of the tools edit_file and texted_eval, as their texts stand in the Go files (translated statement by statement), perform the same reads, writes and prints in the same order as the model for every reply of the operating system, and return the same results, errors and crashes. So of the Go text itself: EditFile has exactly the outcomes of its specification whatever fails (C29), EditFiles treats every file as if alone (C30), at every moment of an in-place edit with backups the original is in the file or its backup (C31), dry runs and expressions change no file (C32, C33), contradictory flags are refused without any action (C34), texted parse prints what C67 says, texted_eval touches nothing (C46), and edit_file with loopUntilError answers exactly when the model does within some number of rounds (C45). ExecuteScript returns a text exactly if the Go text of ParseString returns a program and the Go text of Eval ends with that text in the buffer.", "quantifier": "all scripts, file names, flags, requests and worlds; all replies of the operating system to every action, all crash points, all bounds on loop rounds and call depth", "why_tests_cant": "A test sees one run with one set of replies; the equality ranges over every reply to every action, over lists of files of any length and over a loop without a bound.", "anchors": ["texted.go", "commands/edit.go:runEdit", "commands/edit.go:processFilesInPlace", "commands/edit.go:runExpressions", "commands/edit.go:evaluateExpressionsOnContent", "commands/parse.go:runParse", "edlisp/writer/sexp.go", "edlisp/writer/shell.go", "edlisp/writer/json.go", "edlisp/writer/writer.go", "tools/edit_file.go:EditFileHandler", "tools/texted_eval.go:TextedEvalHandler"]}
{"id": "C96", "title": "The test runner as it is written in Go", "statement": "ParseTestCase, ParseTestFile, RunTest, RunTestWithTrace, RunTestFile, RunTestFileWithTrace, the two functions that show values, the whole of the test command (which files are chosen, the include patterns, the loop over the files, tracing, the report, the summary and the exit status) and the trace callback, as their texts stand in the Go files (translated statement by statement), always come to an end and return, print and exit exactly as the model says. So of the Go text itself: a test passes exactly if what it expects is what happens (C56), a verdict is reached unless the program of the test crashes, tracing and the output flags do not change verdicts or the exit status (C64), the command returns exactly if all the selected files pass and exits with status 1 exactly if one does not, and a test file is read as C77 says.", "quantifier": "all test cases, environments, test files, file contents and failures of reading them, directory contents, flags and include patterns; all bounds on loop rounds and call depth from some bound on", "why_tests_cant": "A test of the runner sees a few files; the equality ranges over all contents, all failures and lists of files of any length, and a fault here would make every other test worthless.", "anchors": ["edlisp/testing/testing.go:ParseTestCase", "edlisp/testing/testing.go:ParseTestFile", "edlisp/testing/testing.go:RunTest", "edlisp/testing/testing.go:RunTestWithTrace", "edlisp/testing/testing.go:RunTestFile", "edlisp/testing/testing.go:RunTestFileWithTrace", "edlisp/testing/testing.go:formatValue", "commands/test.go:runTests", "commands/test.go:printTestResult", "commands/test.go:createTraceCallback", "commands/test.go:formatInstruction"]}
{"id": "C97", "title": "The documentation as it is written in Go", "statement": "RegisterDocumentation, GetDocumentation, GetAllDocumentation, GetDocumentationByCategory, GetCategories, GetRegisteredFunctionCount, the whole of the tool texted_doc and the whole of the command texted doc, as their texts stand in the Go files (translated statement by statement), always come to an end. Go leaves open in which order a loop over a map takes the entries and how a sort arranges equal ones: whatever it chooses, the registry functions return the registered entries (the last one under each name), each once, in alphabetical order, and the categories that occur, each once, in order; without verbose, or with a function named, the tool has one possible answer, whatever the order; and for the verbose lists the answers that the Go text can give are exactly those of the model (C54, C74): each can come, for some order, and no other one comes. The tool prints nothing and leaves the registry alone; the command prints nothing when it returns an error.", "quantifier": "all sequences of registrations, names, categories, flags, arguments of a call of the tool and of the command, all orders in which the runtime takes the entries of the maps and all results of sorting; all bounds on loop rounds and call depth from some bound on", "why_tests_cant": "The order of a map differs from run to run: a test sees one order, and the claim that the answer does not depend on it, or which answers are possible, ranges over all orders and all registries.", "anchors": ["edlisp/documentation_registry.go:RegisterDocumentation", "edlisp/documentation_registry.go:GetDocumentation", "edlisp/documentation_registry.go:GetAllDocumentation", "edlisp/documentation_registry.go:GetDocumentationByCategory", "edlisp/documentation_registry.go:GetCategories", "edlisp/documentation_registry.go:GetRegisteredFunctionCount", "tools/texted_doc.go:TextedDocHandler", "tools/texted_doc.go:handleFunctionDoc", "tools/texted_doc.go:handleCategoryListing", "tools/texted_doc.go:handleAllFunctions", "tools/texted_doc.go:formatFunctionDoc", "tools/texted_doc.go:formatFunctionList", "commands/doc.go:runDoc", "commands/doc.go:showFunctionDoc", "commands/doc.go:listFunctions"]}
{"id": "C98", "title": "The program from its command line on, as it is declared and written in Go", "statement": "The declarations of the commands, their options and the tools, as they stand in main.go, commands/*.go and tools/*.go (translated one by one: variables with their zero values, registrations with name, shorthand and default, the function that is called and which variable reaches which of its arguments), read with cobra's, pflag's and mcp-go's rules, and the functions as they are written in Go, make up the program of the model: for all words on the command line `texted` performs the same actions in the same order and ends with the same exit status; no registration panics; each name of a command stands for its own function. So with neither -i on nor -o given, or with -n on, no file is changed at any moment, whatever else is on the command line; words that are no command line of edit end with status 1 and nothing read, written or printed. The server registers exactly the three tools under the prefix and their names, with the declared parameters, and what it can answer to a call, and leaves in the files, is what the model says.", "quantifier": "all lists of words, worlds, replies to actions (so all failures and all moments), help texts, prefixes, names of tools, JSON arguments and registries", "why_tests_cant": "A swapped variable in the struct that a command passes on, a wrong default, or an option registered on the wrong variable shows up only for command lines that set it; the claim ranges over all command lines, and over every moment of what they cause.", "anchors": ["cmd/texted/main.go:main", "commands/edit.go:NewEditCommand", "commands/parse.go:NewParseCommand", "commands/test.go:NewTestCommand", "commands/doc.go:NewDocCommand", "commands/mcp.go:NewMCPCommand", "commands/mcp.go:runMCPServer", "tools/edit_file.go:NewEditFileToolWithPrefix", "tools/texted_eval.go:NewTextedEvalToolWithPrefix", "tools/texted_doc.go:NewTextedDocToolWithPrefix"]}
{"id": "C99", "title": "The packages linked together, everything as it is written in Go", "statement": "The functions of texted.go, commands and tools, as they are written in Go, calling the parsers, the evaluator, the conversions of the writers as they are written in Go, which call the built-in functions as they are written in Go: everything such a call returns, prints or leaves in the files, at its end and at every moment between, is what the model says (whether or not things fit into memory); and as long as texts, programs and buffers fit into memory, the linked program does all that the model says and nothing else. In particular ExecuteScript, ExecuteScriptWithFormat, EditFile, EditFileWithFormat, EditFiles, EditFilesWithFormat (different names), the tools texted_eval and edit_file (without loopUntilError), `texted parse` for all words and any standard input, `texted edit -e`, and `texted edit` with a script, with any flags on any number of files with different names (and no backup in the place of one of them), do exactly what the model says; after a successful in-place edit with backups every file holds the output of the script and its backup the original, and at every moment before the original is in one of the two places; and `texted WORDS` from main on, for all words, leads to nothing but what the model of the whole program leads to, with its exit status, and for `texted edit` with a script to all of it.", "quantifier": "all functions of the three packages, arguments, worlds, replies to actions (so all failures and all moments), scripts, texts, lists of words; all memories that satisfy the machine's bounds; all environments that run the built-in functions as written", "why_tests_cant": "Each package can be right against its own tests while the pieces do not fit: an error passed on with another text, a result taken from the wrong place, a buffer of a previous call. That the composition is right for every script, text, file system and failure is not a finite matter.", "anchors": ["texted.go:ExecuteScript", "texted.go:ExecuteScriptWithFormat", "texted.go:EditFile", "commands/edit.go:runEdit", "commands/parse.go:runParse", "tools/edit_file.go:EditFileHandler", "tools/texted_eval.go:TextedEvalHandler", "edlisp/eval.go:Eval", "edlisp/parser/linebased.go:ParseString", "edlisp/parser/json.go:ParseJSONString", "edlisp/writer/shell.go:valueToShellString", "edlisp/writer/json.go:valueToJSON"]}
