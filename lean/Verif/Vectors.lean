import Verif.Model.TestRunner
import Verif.Props.Xml
import Verif.Lemmas.LitExt
import Verif.Lemmas.ReExt
/- Generated by tools/vectors.py from /repo/tests/*.xml: the repository's own tests, read and run through the model of its test runner. They test the
model's fidelity; they are not proofs of properties. The tests that need a real regular expression engine use the one of Lemmas/ReExt.lean. -/
namespace Texted

/-- /repo/tests/backward-char-default.xml -/
example : letI := litExt; (runTest defaultEnv { buffer := b! "Hello world", input := b! "\ngoto-char 6\nbackward-char\npoint\n", output := b! "Hello world", result := b! "5", resultLang := b! "sexp", error := b! "\n" }).map (·.passed) = some true := by decide +kernel
example : parseTestCase plainXml (b! "<buffer>Hello world</buffer>\n<input lang=\"shell\">\ngoto-char 6\nbackward-char\npoint\n</input>\n<output>Hello world</output>\n<result lang=\"sexp\">5</result>\n<error lang=\"sexp\">\n</error>") = some { buffer := b! "Hello world", input := b! "\ngoto-char 6\nbackward-char\npoint\n", output := b! "Hello world", result := b! "5", resultLang := b! "sexp", error := b! "\n" } := by decide +kernel

/-- /repo/tests/backward-char.xml -/
example : letI := litExt; (runTest defaultEnv { buffer := b! "Hello world", input := b! "\ngoto-char 8\nbackward-char 3\npoint\n", output := b! "Hello world", result := b! "5", resultLang := b! "sexp", error := b! "\n" }).map (·.passed) = some true := by decide +kernel
example : parseTestCase plainXml (b! "<buffer>Hello world</buffer>\n<input lang=\"shell\">\ngoto-char 8\nbackward-char 3\npoint\n</input>\n<output>Hello world</output>\n<result lang=\"sexp\">5</result>\n<error lang=\"sexp\">\n</error>") = some { buffer := b! "Hello world", input := b! "\ngoto-char 8\nbackward-char 3\npoint\n", output := b! "Hello world", result := b! "5", resultLang := b! "sexp", error := b! "\n" } := by decide +kernel

/-- /repo/tests/backward-kill-word-default.xml -/
example : letI := litExt; (runTest defaultEnv { buffer := b! "Hello world test", input := b! "\ngoto-char 17\nbackward-kill-word\nbuffer-substring 1 -1\n", output := b! "Hello world ", result := b! "\"Hello world \"", resultLang := b! "sexp", error := b! "\n" }).map (·.passed) = some true := by decide +kernel
example : parseTestCase plainXml (b! "<buffer>Hello world test</buffer>\n<input lang=\"shell\">\ngoto-char 17\nbackward-kill-word\nbuffer-substring 1 -1\n</input>\n<output>Hello world </output>\n<result lang=\"sexp\">\"Hello world \"</result>\n<error lang=\"sexp\">\n</error>") = some { buffer := b! "Hello world test", input := b! "\ngoto-char 17\nbackward-kill-word\nbuffer-substring 1 -1\n", output := b! "Hello world ", result := b! "\"Hello world \"", resultLang := b! "sexp", error := b! "\n" } := by decide +kernel

/-- /repo/tests/backward-kill-word.xml -/
example : letI := litExt; (runTest defaultEnv { buffer := b! "Hello world test buffer content", input := b! "\ngoto-char 25\nbackward-kill-word 2\nbuffer-substring 1 -1\n", output := b! "Hello world ontent", result := b! "", resultLang := b! "", error := b! "\n" }).map (·.passed) = some true := by decide +kernel
example : parseTestCase plainXml (b! "<buffer>Hello world test buffer content</buffer>\n<input lang=\"shell\">\ngoto-char 25\nbackward-kill-word 2\nbuffer-substring 1 -1\n</input>\n<output>Hello world ontent</output>\n<error lang=\"sexp\">\n</error>") = some { buffer := b! "Hello world test buffer content", input := b! "\ngoto-char 25\nbackward-kill-word 2\nbuffer-substring 1 -1\n", output := b! "Hello world ontent", result := b! "", resultLang := b! "", error := b! "\n" } := by decide +kernel

/-- /repo/tests/backward-word-default.xml -/
example : letI := litExt; (runTest defaultEnv { buffer := b! "Hello world test", input := b! "\ngoto-char 15\nbackward-word\npoint\n", output := b! "Hello world test", result := b! "13", resultLang := b! "sexp", error := b! "\n" }).map (·.passed) = some true := by decide +kernel
example : parseTestCase plainXml (b! "<buffer>Hello world test</buffer>\n<input lang=\"shell\">\ngoto-char 15\nbackward-word\npoint\n</input>\n<output>Hello world test</output>\n<result lang=\"sexp\">13</result>\n<error lang=\"sexp\">\n</error>") = some { buffer := b! "Hello world test", input := b! "\ngoto-char 15\nbackward-word\npoint\n", output := b! "Hello world test", result := b! "13", resultLang := b! "sexp", error := b! "\n" } := by decide +kernel

/-- /repo/tests/backward-word.xml -/
example : letI := litExt; (runTest defaultEnv { buffer := b! "Hello world test buffer", input := b! "\ngoto-char 20\nbackward-word 2\npoint\n", output := b! "Hello world test buffer", result := b! "13", resultLang := b! "sexp", error := b! "\n" }).map (·.passed) = some true := by decide +kernel
example : parseTestCase plainXml (b! "<buffer>Hello world test buffer</buffer>\n<input lang=\"shell\">\ngoto-char 20\nbackward-word 2\npoint\n</input>\n<output>Hello world test buffer</output>\n<result lang=\"sexp\">13</result>\n<error lang=\"sexp\">\n</error>") = some { buffer := b! "Hello world test buffer", input := b! "\ngoto-char 20\nbackward-word 2\npoint\n", output := b! "Hello world test buffer", result := b! "13", resultLang := b! "sexp", error := b! "\n" } := by decide +kernel

/-- /repo/tests/beginning-of-buffer.xml -/
example : letI := litExt; (runTest defaultEnv { buffer := b! "Hello world\nSecond line\nThird line", input := b! "\ngoto-char 20\nbeginning-of-buffer\npoint\n", output := b! "Hello world\nSecond line\nThird line", result := b! "1", resultLang := b! "sexp", error := b! "\n" }).map (·.passed) = some true := by decide +kernel
example : parseTestCase plainXml (b! "<buffer>Hello world\nSecond line\nThird line</buffer>\n<input lang=\"shell\">\ngoto-char 20\nbeginning-of-buffer\npoint\n</input>\n<output>Hello world\nSecond line\nThird line</output>\n<result lang=\"sexp\">1</result>\n<error lang=\"sexp\">\n</error>") = some { buffer := b! "Hello world\nSecond line\nThird line", input := b! "\ngoto-char 20\nbeginning-of-buffer\npoint\n", output := b! "Hello world\nSecond line\nThird line", result := b! "1", resultLang := b! "sexp", error := b! "\n" } := by decide +kernel

/-- /repo/tests/beginning-of-line.xml -/
example : letI := litExt; (runTest defaultEnv { buffer := b! "1\n3 5\n7", input := b! "\nsearch-forward \"5\"\nbeginning-of-line\npoint\n", output := b! "", result := b! "3", resultLang := b! "sexp", error := b! "\n" }).map (·.passed) = some true := by decide +kernel
example : parseTestCase plainXml (b! "<buffer>1\n3 5\n7</buffer>\n<input lang=\"shell\">\nsearch-forward \"5\"\nbeginning-of-line\npoint\n</input>\n<result lang=\"sexp\">3</result>\n<error lang=\"sexp\">\n</error>\n") = some { buffer := b! "1\n3 5\n7", input := b! "\nsearch-forward \"5\"\nbeginning-of-line\npoint\n", output := b! "", result := b! "3", resultLang := b! "sexp", error := b! "\n" } := by decide +kernel

/-- /repo/tests/buffer-size.xml -/
example : letI := litExt; (runTest defaultEnv { buffer := b! "Hello world test buffer", input := b! "\nbuffer-size\n", output := b! "Hello world test buffer", result := b! "23", resultLang := b! "sexp", error := b! "\n" }).map (·.passed) = some true := by decide +kernel
example : parseTestCase plainXml (b! "<buffer>Hello world test buffer</buffer>\n<input lang=\"shell\">\nbuffer-size\n</input>\n<output>Hello world test buffer</output>\n<result lang=\"sexp\">23</result>\n<error lang=\"sexp\">\n</error>") = some { buffer := b! "Hello world test buffer", input := b! "\nbuffer-size\n", output := b! "Hello world test buffer", result := b! "23", resultLang := b! "sexp", error := b! "\n" } := by decide +kernel

/-- /repo/tests/capitalize.xml -/
example : letI := litExt; (runTest defaultEnv { buffer := b! "Test buffer", input := b! "\ncapitalize \"hello world\"\n", output := b! "Test buffer", result := b! "\"Hello world\"", resultLang := b! "sexp", error := b! "\n" }).map (·.passed) = some true := by decide +kernel
example : parseTestCase plainXml (b! "<buffer>Test buffer</buffer>\n<input lang=\"shell\">\ncapitalize \"hello world\"\n</input>\n<output>Test buffer</output>\n<result lang=\"sexp\">\"Hello world\"</result>\n<error lang=\"sexp\">\n</error>") = some { buffer := b! "Test buffer", input := b! "\ncapitalize \"hello world\"\n", output := b! "Test buffer", result := b! "\"Hello world\"", resultLang := b! "sexp", error := b! "\n" } := by decide +kernel

/-- /repo/tests/concat-multiple-strings.xml -/
example : letI := litExt; (runTest defaultEnv { buffer := b! "Test buffer", input := b! "\nconcat \"Hello\" \" \" \"beautiful\" \" \" \"world\"\n", output := b! "Test buffer", result := b! "\"Hello beautiful world\"", resultLang := b! "sexp", error := b! "\n" }).map (·.passed) = some true := by decide +kernel
example : parseTestCase plainXml (b! "<buffer>Test buffer</buffer>\n<input lang=\"shell\">\nconcat \"Hello\" \" \" \"beautiful\" \" \" \"world\"\n</input>\n<output>Test buffer</output>\n<result lang=\"sexp\">\"Hello beautiful world\"</result>\n<error lang=\"sexp\">\n</error>") = some { buffer := b! "Test buffer", input := b! "\nconcat \"Hello\" \" \" \"beautiful\" \" \" \"world\"\n", output := b! "Test buffer", result := b! "\"Hello beautiful world\"", resultLang := b! "sexp", error := b! "\n" } := by decide +kernel

/-- /repo/tests/concat-two-strings.xml -/
example : letI := litExt; (runTest defaultEnv { buffer := b! "Test buffer", input := b! "\nconcat \"Hello\" \" world\"\n", output := b! "Test buffer", result := b! "\"Hello world\"", resultLang := b! "sexp", error := b! "\n" }).map (·.passed) = some true := by decide +kernel
example : parseTestCase plainXml (b! "<buffer>Test buffer</buffer>\n<input lang=\"shell\">\nconcat \"Hello\" \" world\"\n</input>\n<output>Test buffer</output>\n<result lang=\"sexp\">\"Hello world\"</result>\n<error lang=\"sexp\">\n</error>") = some { buffer := b! "Test buffer", input := b! "\nconcat \"Hello\" \" world\"\n", output := b! "Test buffer", result := b! "\"Hello world\"", resultLang := b! "sexp", error := b! "\n" } := by decide +kernel

/-- /repo/tests/current-column.xml -/
example : letI := litExt; (runTest defaultEnv { buffer := b! "First line\nSecond line with content\nThird line", input := b! "\ngoto-char 25\ncurrent-column\n", output := b! "First line\nSecond line with content\nThird line", result := b! "14", resultLang := b! "sexp", error := b! "\n" }).map (·.passed) = some true := by decide +kernel
example : parseTestCase plainXml (b! "<buffer>First line\nSecond line with content\nThird line</buffer>\n<input lang=\"shell\">\ngoto-char 25\ncurrent-column\n</input>\n<output>First line\nSecond line with content\nThird line</output>\n<result lang=\"sexp\">14</result>\n<error lang=\"sexp\">\n</error>") = some { buffer := b! "First line\nSecond line with content\nThird line", input := b! "\ngoto-char 25\ncurrent-column\n", output := b! "First line\nSecond line with content\nThird line", result := b! "14", resultLang := b! "sexp", error := b! "\n" } := by decide +kernel

/-- /repo/tests/delete-backward-char-default.xml -/
example : letI := litExt; (runTest defaultEnv { buffer := b! "123", input := b! "\nforward-char\ndelete-backward-char\n", output := b! "23", result := b! "", resultLang := b! "", error := b! "\n" }).map (·.passed) = some true := by decide +kernel
example : parseTestCase plainXml (b! "<buffer>123</buffer>\n<input lang=\"shell\">\nforward-char\ndelete-backward-char\n</input>\n<output>23</output>\n<error lang=\"sexp\">\n</error>\n") = some { buffer := b! "123", input := b! "\nforward-char\ndelete-backward-char\n", output := b! "23", result := b! "", resultLang := b! "", error := b! "\n" } := by decide +kernel

/-- /repo/tests/delete-backward-char.xml -/
example : letI := litExt; (runTest defaultEnv { buffer := b! "Hello", input := b! "\nforward-char 2\ndelete-backward-char 2\n", output := b! "llo", result := b! "", resultLang := b! "", error := b! "\n" }).map (·.passed) = some true := by decide +kernel
example : parseTestCase plainXml (b! "<buffer>Hello</buffer>\n<input lang=\"shell\">\nforward-char 2\ndelete-backward-char 2\n</input>\n<output>llo</output>\n<error lang=\"sexp\">\n</error>\n") = some { buffer := b! "Hello", input := b! "\nforward-char 2\ndelete-backward-char 2\n", output := b! "llo", result := b! "", resultLang := b! "", error := b! "\n" } := by decide +kernel

/-- /repo/tests/delete-char-default.xml -/
example : letI := litExt; (runTest defaultEnv { buffer := b! "Hello world", input := b! "\ngoto-char 6\ndelete-char\nbuffer-substring 1 -1\n", output := b! "Helloworld", result := b! "\"Helloworld\"", resultLang := b! "sexp", error := b! "\n" }).map (·.passed) = some true := by decide +kernel
example : parseTestCase plainXml (b! "<buffer>Hello world</buffer>\n<input lang=\"shell\">\ngoto-char 6\ndelete-char\nbuffer-substring 1 -1\n</input>\n<output>Helloworld</output>\n<result lang=\"sexp\">\"Helloworld\"</result>\n<error lang=\"sexp\">\n</error>") = some { buffer := b! "Hello world", input := b! "\ngoto-char 6\ndelete-char\nbuffer-substring 1 -1\n", output := b! "Helloworld", result := b! "\"Helloworld\"", resultLang := b! "sexp", error := b! "\n" } := by decide +kernel

/-- /repo/tests/delete-char.xml -/
example : letI := litExt; (runTest defaultEnv { buffer := b! "Hello", input := b! "\ndelete-char 3\n", output := b! "lo", result := b! "", resultLang := b! "", error := b! "\n" }).map (·.passed) = some true := by decide +kernel
example : parseTestCase plainXml (b! "<buffer>Hello</buffer>\n<input lang=\"shell\">\ndelete-char 3\n</input>\n<output>lo</output>\n<error lang=\"sexp\">\n</error>\n") = some { buffer := b! "Hello", input := b! "\ndelete-char 3\n", output := b! "lo", result := b! "", resultLang := b! "", error := b! "\n" } := by decide +kernel

/-- /repo/tests/delete-line-default.xml -/
example : letI := litExt; (runTest defaultEnv { buffer := b! "First line\nSecond line\nThird line", input := b! "\ngoto-char 15\ndelete-line\nbuffer-substring 1 -1\n", output := b! "First line\nThird line", result := b! "\"First line\\nThird line\"", resultLang := b! "sexp", error := b! "\n" }).map (·.passed) = some true := by decide +kernel
example : parseTestCase plainXml (b! "<buffer>First line\nSecond line\nThird line</buffer>\n<input lang=\"shell\">\ngoto-char 15\ndelete-line\nbuffer-substring 1 -1\n</input>\n<output>First line\nThird line</output>\n<result lang=\"sexp\">\"First line\\nThird line\"</result>\n<error lang=\"sexp\">\n</error>") = some { buffer := b! "First line\nSecond line\nThird line", input := b! "\ngoto-char 15\ndelete-line\nbuffer-substring 1 -1\n", output := b! "First line\nThird line", result := b! "\"First line\\nThird line\"", resultLang := b! "sexp", error := b! "\n" } := by decide +kernel

/-- /repo/tests/delete-line.xml -/
example : letI := litExt; (runTest defaultEnv { buffer := b! "First line\nSecond line\nThird line\nFourth line", input := b! "\ngoto-char 15\ndelete-line 2\nbuffer-substring 1 -1\n", output := b! "First line\nFourth line", result := b! "\"First line\\nFourth line\"", resultLang := b! "sexp", error := b! "\n" }).map (·.passed) = some true := by decide +kernel
example : parseTestCase plainXml (b! "<buffer>First line\nSecond line\nThird line\nFourth line</buffer>\n<input lang=\"shell\">\ngoto-char 15\ndelete-line 2\nbuffer-substring 1 -1\n</input>\n<output>First line\nFourth line</output>\n<result lang=\"sexp\">\"First line\\nFourth line\"</result>\n<error lang=\"sexp\">\n</error>") = some { buffer := b! "First line\nSecond line\nThird line\nFourth line", input := b! "\ngoto-char 15\ndelete-line 2\nbuffer-substring 1 -1\n", output := b! "First line\nFourth line", result := b! "\"First line\\nFourth line\"", resultLang := b! "sexp", error := b! "\n" } := by decide +kernel

/-- /repo/tests/delete-region.xml -/
example : letI := litExt; (runTest defaultEnv { buffer := b! "Hello old world, this is a test.", input := b! "\ngoto-char 7\nset-mark\ngoto-char 10\ndelete-region\nbuffer-substring 1 -1\n", output := b! "Hello  world, this is a test.", result := b! "\"Hello  world, this is a test.\"", resultLang := b! "sexp", error := b! "\n" }).map (·.passed) = some true := by decide +kernel
example : parseTestCase plainXml (b! "<buffer>Hello old world, this is a test.</buffer>\n<input lang=\"shell\">\ngoto-char 7\nset-mark\ngoto-char 10\ndelete-region\nbuffer-substring 1 -1\n</input>\n<output>Hello  world, this is a test.</output>\n<result lang=\"sexp\">\"Hello  world, this is a test.\"</result>\n<error lang=\"sexp\">\n</error>") = some { buffer := b! "Hello old world, this is a test.", input := b! "\ngoto-char 7\nset-mark\ngoto-char 10\ndelete-region\nbuffer-substring 1 -1\n", output := b! "Hello  world, this is a test.", result := b! "\"Hello  world, this is a test.\"", resultLang := b! "sexp", error := b! "\n" } := by decide +kernel

/-- /repo/tests/downcase.xml -/
example : letI := litExt; (runTest defaultEnv { buffer := b! "Test buffer", input := b! "\ndowncase \"Hello World\"\n", output := b! "Test buffer", result := b! "\"hello world\"", resultLang := b! "sexp", error := b! "\n" }).map (·.passed) = some true := by decide +kernel
example : parseTestCase plainXml (b! "<buffer>Test buffer</buffer>\n<input lang=\"shell\">\ndowncase \"Hello World\"\n</input>\n<output>Test buffer</output>\n<result lang=\"sexp\">\"hello world\"</result>\n<error lang=\"sexp\">\n</error>") = some { buffer := b! "Test buffer", input := b! "\ndowncase \"Hello World\"\n", output := b! "Test buffer", result := b! "\"hello world\"", resultLang := b! "sexp", error := b! "\n" } := by decide +kernel

/-- /repo/tests/edit-todo-list.xml -/
example : letI := litExt; (runTest defaultEnv { buffer := b! "- [ ] Buy milk\n- [ ] Call mother\n- [ ] Eat lunch", input := b! "\nsearch-forward \"mother\"\nbeginning-of-line\nsearch-forward \"[ ]\"\nreplace-match \"[x]\"\n", output := b! "- [ ] Buy milk\n- [x] Call mother\n- [ ] Eat lunch", result := b! "", resultLang := b! "", error := b! "" }).map (·.passed) = some true := by decide +kernel
example : parseTestCase plainXml (b! "<buffer>- [ ] Buy milk\n- [ ] Call mother\n- [ ] Eat lunch</buffer>\n<input lang=\"shell\">\nsearch-forward \"mother\"\nbeginning-of-line\nsearch-forward \"[ ]\"\nreplace-match \"[x]\"\n</input>\n<output>- [ ] Buy milk\n- [x] Call mother\n- [ ] Eat lunch</output>\n") = some { buffer := b! "- [ ] Buy milk\n- [ ] Call mother\n- [ ] Eat lunch", input := b! "\nsearch-forward \"mother\"\nbeginning-of-line\nsearch-forward \"[ ]\"\nreplace-match \"[x]\"\n", output := b! "- [ ] Buy milk\n- [x] Call mother\n- [ ] Eat lunch", result := b! "", resultLang := b! "", error := b! "" } := by decide +kernel

/-- /repo/tests/end-of-line.xml -/
example : letI := litExt; (runTest defaultEnv { buffer := b! "One\nTwo\nThree", input := b! "\nsearch-forward \"T\"\nend-of-line\npoint\n", output := b! "", result := b! "8", resultLang := b! "sexp", error := b! "\n" }).map (·.passed) = some true := by decide +kernel
example : parseTestCase plainXml (b! "<buffer>One\nTwo\nThree</buffer>\n<input lang=\"shell\">\nsearch-forward \"T\"\nend-of-line\npoint\n</input>\n<result lang=\"sexp\">8</result>\n<error lang=\"sexp\">\n</error>\n") = some { buffer := b! "One\nTwo\nThree", input := b! "\nsearch-forward \"T\"\nend-of-line\npoint\n", output := b! "", result := b! "8", resultLang := b! "sexp", error := b! "\n" } := by decide +kernel

/-- /repo/tests/exchange-point-and-mark.xml -/
example : letI := litExt; (runTest defaultEnv { buffer := b! "Hello world test", input := b! "\ngoto-char 5\nset-mark\ngoto-char 10\nexchange-point-and-mark\npoint\n", output := b! "Hello world test", result := b! "5", resultLang := b! "sexp", error := b! "\n" }).map (·.passed) = some true := by decide +kernel
example : parseTestCase plainXml (b! "<buffer>Hello world test</buffer>\n<input lang=\"shell\">\ngoto-char 5\nset-mark\ngoto-char 10\nexchange-point-and-mark\npoint\n</input>\n<output>Hello world test</output>\n<result lang=\"sexp\">5</result>\n<error lang=\"sexp\">\n</error>") = some { buffer := b! "Hello world test", input := b! "\ngoto-char 5\nset-mark\ngoto-char 10\nexchange-point-and-mark\npoint\n", output := b! "Hello world test", result := b! "5", resultLang := b! "sexp", error := b! "\n" } := by decide +kernel

/-- /repo/tests/forward-char-default.xml -/
example : letI := litExt; (runTest defaultEnv { buffer := b! "Hello world", input := b! "\ngoto-char 5\nforward-char\npoint\n", output := b! "Hello world", result := b! "6", resultLang := b! "sexp", error := b! "\n" }).map (·.passed) = some true := by decide +kernel
example : parseTestCase plainXml (b! "<buffer>Hello world</buffer>\n<input lang=\"shell\">\ngoto-char 5\nforward-char\npoint\n</input>\n<output>Hello world</output>\n<result lang=\"sexp\">6</result>\n<error lang=\"sexp\">\n</error>") = some { buffer := b! "Hello world", input := b! "\ngoto-char 5\nforward-char\npoint\n", output := b! "Hello world", result := b! "6", resultLang := b! "sexp", error := b! "\n" } := by decide +kernel

/-- /repo/tests/forward-char.xml -/
example : letI := litExt; (runTest defaultEnv { buffer := b! "Hello world", input := b! "\ngoto-char 1\nforward-char 3\npoint\n", output := b! "Hello world", result := b! "4", resultLang := b! "sexp", error := b! "\n" }).map (·.passed) = some true := by decide +kernel
example : parseTestCase plainXml (b! "<buffer>Hello world</buffer>\n<input lang=\"shell\">\ngoto-char 1\nforward-char 3\npoint\n</input>\n<output>Hello world</output>\n<result lang=\"sexp\">4</result>\n<error lang=\"sexp\">\n</error>") = some { buffer := b! "Hello world", input := b! "\ngoto-char 1\nforward-char 3\npoint\n", output := b! "Hello world", result := b! "4", resultLang := b! "sexp", error := b! "\n" } := by decide +kernel

/-- /repo/tests/forward-word-default.xml -/
example : letI := litExt; (runTest defaultEnv { buffer := b! "Hello world test", input := b! "\ngoto-char 3\nforward-word\npoint\n", output := b! "Hello world test", result := b! "6", resultLang := b! "sexp", error := b! "\n" }).map (·.passed) = some true := by decide +kernel
example : parseTestCase plainXml (b! "<buffer>Hello world test</buffer>\n<input lang=\"shell\">\ngoto-char 3\nforward-word\npoint\n</input>\n<output>Hello world test</output>\n<result lang=\"sexp\">6</result>\n<error lang=\"sexp\">\n</error>") = some { buffer := b! "Hello world test", input := b! "\ngoto-char 3\nforward-word\npoint\n", output := b! "Hello world test", result := b! "6", resultLang := b! "sexp", error := b! "\n" } := by decide +kernel

/-- /repo/tests/forward-word.xml -/
example : letI := litExt; (runTest defaultEnv { buffer := b! "Hello world test buffer", input := b! "\ngoto-char 1\nforward-word 2\npoint\n", output := b! "Hello world test buffer", result := b! "12", resultLang := b! "sexp", error := b! "\n" }).map (·.passed) = some true := by decide +kernel
example : parseTestCase plainXml (b! "<buffer>Hello world test buffer</buffer>\n<input lang=\"shell\">\ngoto-char 1\nforward-word 2\npoint\n</input>\n<output>Hello world test buffer</output>\n<result lang=\"sexp\">12</result>\n<error lang=\"sexp\">\n</error>") = some { buffer := b! "Hello world test buffer", input := b! "\ngoto-char 1\nforward-word 2\npoint\n", output := b! "Hello world test buffer", result := b! "12", resultLang := b! "sexp", error := b! "\n" } := by decide +kernel

/-- /repo/tests/goto-line.xml -/
example : letI := litExt; (runTest defaultEnv { buffer := b! "Line 1: First line of text\nLine 2: Second line of text  \nLine 3: Third line of text\nLine 4: Fourth line of text", input := b! "\ngoto-line 3\nline-number-at-pos\n", output := b! "Line 1: First line of text\nLine 2: Second line of text  \nLine 3: Third line of text\nLine 4: Fourth line of text", result := b! "3", resultLang := b! "sexp", error := b! "\n" }).map (·.passed) = some true := by decide +kernel
example : parseTestCase plainXml (b! "<buffer>Line 1: First line of text\nLine 2: Second line of text  \nLine 3: Third line of text\nLine 4: Fourth line of text</buffer>\n<input lang=\"shell\">\ngoto-line 3\nline-number-at-pos\n</input>\n<output>Line 1: First line of text\nLine 2: Second line of text  \nLine 3: Third line of text\nLine 4: Fourth line of text</output>\n<result lang=\"sexp\">3</result>\n<error lang=\"sexp\">\n</error>") = some { buffer := b! "Line 1: First line of text\nLine 2: Second line of text  \nLine 3: Third line of text\nLine 4: Fourth line of text", input := b! "\ngoto-line 3\nline-number-at-pos\n", output := b! "Line 1: First line of text\nLine 2: Second line of text  \nLine 3: Third line of text\nLine 4: Fourth line of text", result := b! "3", resultLang := b! "sexp", error := b! "\n" } := by decide +kernel

/-- /repo/tests/insert.xml -/
example : letI := litExt; (runTest defaultEnv { buffer := b! "", input := b! "\ninsert \"hello, world\"\n", output := b! "hello, world", result := b! "\"\"", resultLang := b! "sexp", error := b! "\n" }).map (·.passed) = some true := by decide +kernel
example : parseTestCase plainXml (b! "<buffer></buffer>\n<input lang=\"shell\">\ninsert \"hello, world\"\n</input>\n<output>hello, world</output>\n<result lang=\"sexp\">\"\"</result>\n<error lang=\"sexp\">\n</error>\n") = some { buffer := b! "", input := b! "\ninsert \"hello, world\"\n", output := b! "hello, world", result := b! "\"\"", resultLang := b! "sexp", error := b! "\n" } := by decide +kernel

/-- /repo/tests/kill-line-count.xml -/
example : letI := litExt; (runTest defaultEnv { buffer := b! "First line\nSecond line\nThird line\nFourth line", input := b! "\ngoto-char 1\nkill-line 2\nbuffer-substring 1 -1\n", output := b! "Third line\nFourth line", result := b! "\"Third line\\nFourth line\"", resultLang := b! "sexp", error := b! "\n" }).map (·.passed) = some true := by decide +kernel
example : parseTestCase plainXml (b! "<buffer>First line\nSecond line\nThird line\nFourth line</buffer>\n<input lang=\"shell\">\ngoto-char 1\nkill-line 2\nbuffer-substring 1 -1\n</input>\n<output>Third line\nFourth line</output>\n<result lang=\"sexp\">\"Third line\\nFourth line\"</result>\n<error lang=\"sexp\">\n</error>") = some { buffer := b! "First line\nSecond line\nThird line\nFourth line", input := b! "\ngoto-char 1\nkill-line 2\nbuffer-substring 1 -1\n", output := b! "Third line\nFourth line", result := b! "\"Third line\\nFourth line\"", resultLang := b! "sexp", error := b! "\n" } := by decide +kernel

/-- /repo/tests/kill-line.xml -/
example : letI := litExt; (runTest defaultEnv { buffer := b! "First line content\nSecond line content\nThird line", input := b! "\ngoto-char 8\nkill-line\nbuffer-substring 1 -1\n", output := b! "First li\nSecond line content\nThird line", result := b! "\"First li\\nSecond line content\\nThird line\"", resultLang := b! "sexp", error := b! "\n" }).map (·.passed) = some true := by decide +kernel
example : parseTestCase plainXml (b! "<buffer>First line content\nSecond line content\nThird line</buffer>\n<input lang=\"shell\">\ngoto-char 8\nkill-line\nbuffer-substring 1 -1\n</input>\n<output>First li\nSecond line content\nThird line</output>\n<result lang=\"sexp\">\"First li\\nSecond line content\\nThird line\"</result>\n<error lang=\"sexp\">\n</error>") = some { buffer := b! "First line content\nSecond line content\nThird line", input := b! "\ngoto-char 8\nkill-line\nbuffer-substring 1 -1\n", output := b! "First li\nSecond line content\nThird line", result := b! "\"First li\\nSecond line content\\nThird line\"", resultLang := b! "sexp", error := b! "\n" } := by decide +kernel

/-- /repo/tests/kill-word-default.xml -/
example : letI := litExt; (runTest defaultEnv { buffer := b! "Hello world test", input := b! "\ngoto-char 3\nkill-word\nbuffer-substring 1 -1\n", output := b! "He world test", result := b! "\"He world test\"", resultLang := b! "sexp", error := b! "\n" }).map (·.passed) = some true := by decide +kernel
example : parseTestCase plainXml (b! "<buffer>Hello world test</buffer>\n<input lang=\"shell\">\ngoto-char 3\nkill-word\nbuffer-substring 1 -1\n</input>\n<output>He world test</output>\n<result lang=\"sexp\">\"He world test\"</result>\n<error lang=\"sexp\">\n</error>") = some { buffer := b! "Hello world test", input := b! "\ngoto-char 3\nkill-word\nbuffer-substring 1 -1\n", output := b! "He world test", result := b! "\"He world test\"", resultLang := b! "sexp", error := b! "\n" } := by decide +kernel

/-- /repo/tests/kill-word.xml -/
example : letI := litExt; (runTest defaultEnv { buffer := b! "Hello world test buffer content", input := b! "\ngoto-char 1\nkill-word 2\nbuffer-substring 1 -1\n", output := b! " test buffer content", result := b! "\" test buffer content\"", resultLang := b! "sexp", error := b! "\n" }).map (·.passed) = some true := by decide +kernel
example : parseTestCase plainXml (b! "<buffer>Hello world test buffer content</buffer>\n<input lang=\"shell\">\ngoto-char 1\nkill-word 2\nbuffer-substring 1 -1\n</input>\n<output> test buffer content</output>\n<result lang=\"sexp\">\" test buffer content\"</result>\n<error lang=\"sexp\">\n</error>") = some { buffer := b! "Hello world test buffer content", input := b! "\ngoto-char 1\nkill-word 2\nbuffer-substring 1 -1\n", output := b! " test buffer content", result := b! "\" test buffer content\"", resultLang := b! "sexp", error := b! "\n" } := by decide +kernel

/-- /repo/tests/length-empty-string.xml -/
example : letI := litExt; (runTest defaultEnv { buffer := b! "Test buffer", input := b! "\nlength \"\"\n", output := b! "Test buffer", result := b! "0", resultLang := b! "sexp", error := b! "\n" }).map (·.passed) = some true := by decide +kernel
example : parseTestCase plainXml (b! "<buffer>Test buffer</buffer>\n<input lang=\"shell\">\nlength \"\"\n</input>\n<output>Test buffer</output>\n<result lang=\"sexp\">0</result>\n<error lang=\"sexp\">\n</error>") = some { buffer := b! "Test buffer", input := b! "\nlength \"\"\n", output := b! "Test buffer", result := b! "0", resultLang := b! "sexp", error := b! "\n" } := by decide +kernel

/-- /repo/tests/length-string.xml -/
example : letI := litExt; (runTest defaultEnv { buffer := b! "Hello world", input := b! "\nlength \"Hello world\"\n", output := b! "Hello world", result := b! "11", resultLang := b! "sexp", error := b! "\n" }).map (·.passed) = some true := by decide +kernel
example : parseTestCase plainXml (b! "<buffer>Hello world</buffer>\n<input lang=\"shell\">\nlength \"Hello world\"\n</input>\n<output>Hello world</output>\n<result lang=\"sexp\">11</result>\n<error lang=\"sexp\">\n</error>") = some { buffer := b! "Hello world", input := b! "\nlength \"Hello world\"\n", output := b! "Hello world", result := b! "11", resultLang := b! "sexp", error := b! "\n" } := by decide +kernel

/-- /repo/tests/looking-at-false.xml -/
example : letI := litExt; (runTest defaultEnv { buffer := b! "Hello world test", input := b! "\ngoto-char 7\nlooking-at \"test\"\n", output := b! "Hello world test", result := b! "nil", resultLang := b! "sexp", error := b! "\n" }).map (·.passed) = some true := by decide +kernel
example : parseTestCase plainXml (b! "<buffer>Hello world test</buffer>\n<input lang=\"shell\">\ngoto-char 7\nlooking-at \"test\"\n</input>\n<output>Hello world test</output>\n<result lang=\"sexp\">nil</result>\n<error lang=\"sexp\">\n</error>") = some { buffer := b! "Hello world test", input := b! "\ngoto-char 7\nlooking-at \"test\"\n", output := b! "Hello world test", result := b! "nil", resultLang := b! "sexp", error := b! "\n" } := by decide +kernel

/-- /repo/tests/looking-at-regex.xml -/
example : letI := reExt; (runTest defaultEnv { buffer := b! "Hello 123 world", input := b! "\ngoto-char 7\nlooking-at \"[0-9]+\"\n", output := b! "Hello 123 world", result := b! "t", resultLang := b! "sexp", error := b! "\n" }).map (·.passed) = some true := by decide +kernel
example : parseTestCase plainXml (b! "<buffer>Hello 123 world</buffer>\n<input lang=\"shell\">\ngoto-char 7\nlooking-at \"[0-9]+\"\n</input>\n<output>Hello 123 world</output>\n<result lang=\"sexp\">t</result>\n<error lang=\"sexp\">\n</error>") = some { buffer := b! "Hello 123 world", input := b! "\ngoto-char 7\nlooking-at \"[0-9]+\"\n", output := b! "Hello 123 world", result := b! "t", resultLang := b! "sexp", error := b! "\n" } := by decide +kernel

/-- /repo/tests/looking-at.xml -/
example : letI := litExt; (runTest defaultEnv { buffer := b! "Hello world test buffer", input := b! "\ngoto-char 7\nlooking-at \"world\"\n", output := b! "Hello world test buffer", result := b! "t", resultLang := b! "sexp", error := b! "\n" }).map (·.passed) = some true := by decide +kernel
example : parseTestCase plainXml (b! "<buffer>Hello world test buffer</buffer>\n<input lang=\"shell\">\ngoto-char 7\nlooking-at \"world\"\n</input>\n<output>Hello world test buffer</output>\n<result lang=\"sexp\">t</result>\n<error lang=\"sexp\">\n</error>") = some { buffer := b! "Hello world test buffer", input := b! "\ngoto-char 7\nlooking-at \"world\"\n", output := b! "Hello world test buffer", result := b! "t", resultLang := b! "sexp", error := b! "\n" } := by decide +kernel

/-- /repo/tests/looking-back-false.xml -/
example : letI := litExt; (runTest defaultEnv { buffer := b! "Hello world test", input := b! "\ngoto-char 8\nlooking-back \"test\"\n", output := b! "Hello world test", result := b! "nil", resultLang := b! "sexp", error := b! "\n" }).map (·.passed) = some true := by decide +kernel
example : parseTestCase plainXml (b! "<buffer>Hello world test</buffer>\n<input lang=\"shell\">\ngoto-char 8\nlooking-back \"test\"\n</input>\n<output>Hello world test</output>\n<result lang=\"sexp\">nil</result>\n<error lang=\"sexp\">\n</error>") = some { buffer := b! "Hello world test", input := b! "\ngoto-char 8\nlooking-back \"test\"\n", output := b! "Hello world test", result := b! "nil", resultLang := b! "sexp", error := b! "\n" } := by decide +kernel

/-- /repo/tests/looking-back-regex.xml -/
example : letI := reExt; (runTest defaultEnv { buffer := b! "Hello 123 world", input := b! "\ngoto-char 10\nlooking-back \"[0-9]+\"\n", output := b! "Hello 123 world", result := b! "t", resultLang := b! "sexp", error := b! "\n" }).map (·.passed) = some true := by decide +kernel
example : parseTestCase plainXml (b! "<buffer>Hello 123 world</buffer>\n<input lang=\"shell\">\ngoto-char 10\nlooking-back \"[0-9]+\"\n</input>\n<output>Hello 123 world</output>\n<result lang=\"sexp\">t</result>\n<error lang=\"sexp\">\n</error>") = some { buffer := b! "Hello 123 world", input := b! "\ngoto-char 10\nlooking-back \"[0-9]+\"\n", output := b! "Hello 123 world", result := b! "t", resultLang := b! "sexp", error := b! "\n" } := by decide +kernel

/-- /repo/tests/looking-back.xml -/
example : letI := litExt; (runTest defaultEnv { buffer := b! "Hello world test buffer", input := b! "\ngoto-char 12\nlooking-back \"world\"\n", output := b! "Hello world test buffer", result := b! "t", resultLang := b! "sexp", error := b! "\n" }).map (·.passed) = some true := by decide +kernel
example : parseTestCase plainXml (b! "<buffer>Hello world test buffer</buffer>\n<input lang=\"shell\">\ngoto-char 12\nlooking-back \"world\"\n</input>\n<output>Hello world test buffer</output>\n<result lang=\"sexp\">t</result>\n<error lang=\"sexp\">\n</error>") = some { buffer := b! "Hello world test buffer", input := b! "\ngoto-char 12\nlooking-back \"world\"\n", output := b! "Hello world test buffer", result := b! "t", resultLang := b! "sexp", error := b! "\n" } := by decide +kernel

/-- /repo/tests/mark-line-default.xml -/
example : letI := litExt; (runTest defaultEnv { buffer := b! "First line\nSecond line\nThird line", input := b! "\nsearch-forward \"Second\"\nmark-line\nbuffer-substring (region-beginning) (region-end)\n", output := b! "", result := b! "\"Second line\\n\"", resultLang := b! "sexp", error := b! "\n" }).map (·.passed) = some true := by decide +kernel
example : parseTestCase plainXml (b! "<buffer>First line\nSecond line\nThird line</buffer>\n<input lang=\"shell\">\nsearch-forward \"Second\"\nmark-line\nbuffer-substring (region-beginning) (region-end)\n</input>\n<result lang=\"sexp\">\"Second line\\n\"</result>\n<error lang=\"sexp\">\n</error>\n") = some { buffer := b! "First line\nSecond line\nThird line", input := b! "\nsearch-forward \"Second\"\nmark-line\nbuffer-substring (region-beginning) (region-end)\n", output := b! "", result := b! "\"Second line\\n\"", resultLang := b! "sexp", error := b! "\n" } := by decide +kernel

/-- /repo/tests/mark-line.xml -/
example : letI := litExt; (runTest defaultEnv { buffer := b! "First line\nSecond line\nThird line\nFourth line", input := b! "\ngoto-char 15\nmark-line 2\nmark\npoint\n", output := b! "First line\nSecond line\nThird line\nFourth line", result := b! "", resultLang := b! "", error := b! "\n" }).map (·.passed) = some true := by decide +kernel
example : parseTestCase plainXml (b! "<buffer>First line\nSecond line\nThird line\nFourth line</buffer>\n<input lang=\"shell\">\ngoto-char 15\nmark-line 2\nmark\npoint\n</input>\n<output>First line\nSecond line\nThird line\nFourth line</output>\n<error lang=\"sexp\">\n</error>") = some { buffer := b! "First line\nSecond line\nThird line\nFourth line", input := b! "\ngoto-char 15\nmark-line 2\nmark\npoint\n", output := b! "First line\nSecond line\nThird line\nFourth line", result := b! "", resultLang := b! "", error := b! "\n" } := by decide +kernel

/-- /repo/tests/mark-whole-buffer.xml -/
example : letI := litExt; (runTest defaultEnv { buffer := b! "Hello world test buffer content", input := b! "\nmark-whole-buffer\nmark\npoint\n", output := b! "Hello world test buffer content", result := b! "", resultLang := b! "", error := b! "\n" }).map (·.passed) = some true := by decide +kernel
example : parseTestCase plainXml (b! "<buffer>Hello world test buffer content</buffer>\n<input lang=\"shell\">\nmark-whole-buffer\nmark\npoint\n</input>\n<output>Hello world test buffer content</output>\n<error lang=\"sexp\">\n</error>") = some { buffer := b! "Hello world test buffer content", input := b! "\nmark-whole-buffer\nmark\npoint\n", output := b! "Hello world test buffer content", result := b! "", resultLang := b! "", error := b! "\n" } := by decide +kernel

/-- /repo/tests/mark-word.xml -/
example : letI := litExt; (runTest defaultEnv { buffer := b! "Hello world, this is a test buffer.", input := b! "\ngoto-char 7\nmark-word\nregion-beginning\nregion-end\n", output := b! "Hello world, this is a test buffer.", result := b! "12", resultLang := b! "sexp", error := b! "\n" }).map (·.passed) = some true := by decide +kernel
example : parseTestCase plainXml (b! "<buffer>Hello world, this is a test buffer.</buffer>\n<input lang=\"shell\">\ngoto-char 7\nmark-word\nregion-beginning\nregion-end\n</input>\n<output>Hello world, this is a test buffer.</output>\n<result lang=\"sexp\">12</result>\n<error lang=\"sexp\">\n</error>") = some { buffer := b! "Hello world, this is a test buffer.", input := b! "\ngoto-char 7\nmark-word\nregion-beginning\nregion-end\n", output := b! "Hello world, this is a test buffer.", result := b! "12", resultLang := b! "sexp", error := b! "\n" } := by decide +kernel

/-- /repo/tests/multiple-inserts.xml -/
example : letI := litExt; (runTest defaultEnv { buffer := b! "", input := b! "\ninsert \"hello, w\"\ninsert \"orld\"\ninsert \"\\n\"\ninsert \".\"\n", output := b! "hello, world\n.", result := b! "\"\"", resultLang := b! "sexp", error := b! "\n" }).map (·.passed) = some true := by decide +kernel
example : parseTestCase plainXml (b! "<buffer></buffer>\n<input lang=\"shell\">\ninsert \"hello, w\"\ninsert \"orld\"\ninsert \"\\n\"\ninsert \".\"\n</input>\n<output>hello, world\n.</output>\n<result lang=\"sexp\">\"\"</result>\n<error lang=\"sexp\">\n</error>\n") = some { buffer := b! "", input := b! "\ninsert \"hello, w\"\ninsert \"orld\"\ninsert \"\\n\"\ninsert \".\"\n", output := b! "hello, world\n.", result := b! "\"\"", resultLang := b! "sexp", error := b! "\n" } := by decide +kernel

/-- /repo/tests/point-max.xml -/
example : letI := litExt; (runTest defaultEnv { buffer := b! "Hello world test", input := b! "\npoint-max\n", output := b! "Hello world test", result := b! "17", resultLang := b! "sexp", error := b! "\n" }).map (·.passed) = some true := by decide +kernel
example : parseTestCase plainXml (b! "<buffer>Hello world test</buffer>\n<input lang=\"shell\">\npoint-max\n</input>\n<output>Hello world test</output>\n<result lang=\"sexp\">17</result>\n<error lang=\"sexp\">\n</error>") = some { buffer := b! "Hello world test", input := b! "\npoint-max\n", output := b! "Hello world test", result := b! "17", resultLang := b! "sexp", error := b! "\n" } := by decide +kernel

/-- /repo/tests/point-min.xml -/
example : letI := litExt; (runTest defaultEnv { buffer := b! "Hello world test", input := b! "\npoint-min\n", output := b! "Hello world test", result := b! "1", resultLang := b! "sexp", error := b! "\n" }).map (·.passed) = some true := by decide +kernel
example : parseTestCase plainXml (b! "<buffer>Hello world test</buffer>\n<input lang=\"shell\">\npoint-min\n</input>\n<output>Hello world test</output>\n<result lang=\"sexp\">1</result>\n<error lang=\"sexp\">\n</error>") = some { buffer := b! "Hello world test", input := b! "\npoint-min\n", output := b! "Hello world test", result := b! "1", resultLang := b! "sexp", error := b! "\n" } := by decide +kernel

/-- /repo/tests/re-search-backward.xml -/
example : letI := reExt; (runTest defaultEnv { buffer := b! "One two three", input := b! "\nend-of-buffer\nre-search-backward \"two\"\npoint\n", output := b! "", result := b! "8", resultLang := b! "sexp", error := b! "\n" }).map (·.passed) = some true := by decide +kernel
example : parseTestCase plainXml (b! "<buffer>One two three</buffer>\n<input lang=\"shell\">\nend-of-buffer\nre-search-backward \"two\"\npoint\n</input>\n<result lang=\"sexp\">8</result>\n<error lang=\"sexp\">\n</error>\n") = some { buffer := b! "One two three", input := b! "\nend-of-buffer\nre-search-backward \"two\"\npoint\n", output := b! "", result := b! "8", resultLang := b! "sexp", error := b! "\n" } := by decide +kernel

/-- /repo/tests/re-search-forward.xml -/
example : letI := reExt; (runTest defaultEnv { buffer := b! "The function foo123 is defined here.\nAnother function bar456 is also present.\nAnd finally baz789 completes the set.", input := b! "\nre-search-forward \"[a-z]+[0-9]+\"\npoint\n", output := b! "The function foo123 is defined here.\nAnother function bar456 is also present.\nAnd finally baz789 completes the set.", result := b! "20", resultLang := b! "sexp", error := b! "\n" }).map (·.passed) = some true := by decide +kernel
example : parseTestCase plainXml (b! "<buffer>The function foo123 is defined here.\nAnother function bar456 is also present.\nAnd finally baz789 completes the set.</buffer>\n<input lang=\"shell\">\nre-search-forward \"[a-z]+[0-9]+\"\npoint\n</input>\n<output>The function foo123 is defined here.\nAnother function bar456 is also present.\nAnd finally baz789 completes the set.</output>\n<result lang=\"sexp\">20</result>\n<error lang=\"sexp\">\n</error>") = some { buffer := b! "The function foo123 is defined here.\nAnother function bar456 is also present.\nAnd finally baz789 completes the set.", input := b! "\nre-search-forward \"[a-z]+[0-9]+\"\npoint\n", output := b! "The function foo123 is defined here.\nAnother function bar456 is also present.\nAnd finally baz789 completes the set.", result := b! "20", resultLang := b! "sexp", error := b! "\n" } := by decide +kernel

/-- /repo/tests/replace-match.xml -/
example : letI := litExt; (runTest defaultEnv { buffer := b! "Hello old world, this is a test.", input := b! "\nsearch-forward \"old\"\nreplace-match \"new\"\nbuffer-substring 1 -1\n", output := b! "Hello new world, this is a test.", result := b! "\"Hello new world, this is a test.\"", resultLang := b! "sexp", error := b! "\n" }).map (·.passed) = some true := by decide +kernel
example : parseTestCase plainXml (b! "<buffer>Hello old world, this is a test.</buffer>\n<input lang=\"shell\">\nsearch-forward \"old\"\nreplace-match \"new\"\nbuffer-substring 1 -1\n</input>\n<output>Hello new world, this is a test.</output>\n<result lang=\"sexp\">\"Hello new world, this is a test.\"</result>\n<error lang=\"sexp\">\n</error>") = some { buffer := b! "Hello old world, this is a test.", input := b! "\nsearch-forward \"old\"\nreplace-match \"new\"\nbuffer-substring 1 -1\n", output := b! "Hello new world, this is a test.", result := b! "\"Hello new world, this is a test.\"", resultLang := b! "sexp", error := b! "\n" } := by decide +kernel

/-- /repo/tests/replace-regexp-in-string-regex.xml -/
example : letI := reExt; (runTest defaultEnv { buffer := b! "Test buffer", input := b! "\nreplace-regexp-in-string \"[0-9]+\" \"NUM\" \"Hello 123 world 456\"\n", output := b! "Test buffer", result := b! "\"Hello NUM world NUM\"", resultLang := b! "sexp", error := b! "\n" }).map (·.passed) = some true := by decide +kernel
example : parseTestCase plainXml (b! "<buffer>Test buffer</buffer>\n<input lang=\"shell\">\nreplace-regexp-in-string \"[0-9]+\" \"NUM\" \"Hello 123 world 456\"\n</input>\n<output>Test buffer</output>\n<result lang=\"sexp\">\"Hello NUM world NUM\"</result>\n<error lang=\"sexp\">\n</error>") = some { buffer := b! "Test buffer", input := b! "\nreplace-regexp-in-string \"[0-9]+\" \"NUM\" \"Hello 123 world 456\"\n", output := b! "Test buffer", result := b! "\"Hello NUM world NUM\"", resultLang := b! "sexp", error := b! "\n" } := by decide +kernel

/-- /repo/tests/replace-regexp-in-string.xml -/
example : letI := reExt; (runTest defaultEnv { buffer := b! "Test buffer", input := b! "\nreplace-regexp-in-string \"o\" \"0\" \"Hello world\"\n", output := b! "Test buffer", result := b! "\"Hell0 w0rld\"", resultLang := b! "sexp", error := b! "\n" }).map (·.passed) = some true := by decide +kernel
example : parseTestCase plainXml (b! "<buffer>Test buffer</buffer>\n<input lang=\"shell\">\nreplace-regexp-in-string \"o\" \"0\" \"Hello world\"\n</input>\n<output>Test buffer</output>\n<result lang=\"sexp\">\"Hell0 w0rld\"</result>\n<error lang=\"sexp\">\n</error>") = some { buffer := b! "Test buffer", input := b! "\nreplace-regexp-in-string \"o\" \"0\" \"Hello world\"\n", output := b! "Test buffer", result := b! "\"Hell0 w0rld\"", resultLang := b! "sexp", error := b! "\n" } := by decide +kernel

/-- /repo/tests/replace-region.xml -/
example : letI := litExt; (runTest defaultEnv { buffer := b! "Hello old world, this is a test.", input := b! "\ngoto-char 7\nset-mark\ngoto-char 10\nreplace-region \"new\"\nbuffer-substring 1 -1\n", output := b! "Hello new world, this is a test.", result := b! "\"Hello new world, this is a test.\"", resultLang := b! "sexp", error := b! "\n" }).map (·.passed) = some true := by decide +kernel
example : parseTestCase plainXml (b! "<buffer>Hello old world, this is a test.</buffer>\n<input lang=\"shell\">\ngoto-char 7\nset-mark\ngoto-char 10\nreplace-region \"new\"\nbuffer-substring 1 -1\n</input>\n<output>Hello new world, this is a test.</output>\n<result lang=\"sexp\">\"Hello new world, this is a test.\"</result>\n<error lang=\"sexp\">\n</error>") = some { buffer := b! "Hello old world, this is a test.", input := b! "\ngoto-char 7\nset-mark\ngoto-char 10\nreplace-region \"new\"\nbuffer-substring 1 -1\n", output := b! "Hello new world, this is a test.", result := b! "\"Hello new world, this is a test.\"", resultLang := b! "sexp", error := b! "\n" } := by decide +kernel

/-- /repo/tests/search-backward.xml -/
example : letI := litExt; (runTest defaultEnv { buffer := b! "Hello world, this is a test buffer.\nThe word \"test\" appears twice here.\nAnother line with test content.", input := b! "\nend-of-buffer\nsearch-backward \"test\"\npoint\n", output := b! "Hello world, this is a test buffer.\nThe word \"test\" appears twice here.\nAnother line with test content.", result := b! "95", resultLang := b! "sexp", error := b! "\n" }).map (·.passed) = some true := by decide +kernel
example : parseTestCase plainXml (b! "<buffer>Hello world, this is a test buffer.\nThe word \"test\" appears twice here.\nAnother line with test content.</buffer>\n<input lang=\"shell\">\nend-of-buffer\nsearch-backward \"test\"\npoint\n</input>\n<output>Hello world, this is a test buffer.\nThe word \"test\" appears twice here.\nAnother line with test content.</output>\n<result lang=\"sexp\">95</result>\n<error lang=\"sexp\">\n</error>") = some { buffer := b! "Hello world, this is a test buffer.\nThe word \"test\" appears twice here.\nAnother line with test content.", input := b! "\nend-of-buffer\nsearch-backward \"test\"\npoint\n", output := b! "Hello world, this is a test buffer.\nThe word \"test\" appears twice here.\nAnother line with test content.", result := b! "95", resultLang := b! "sexp", error := b! "\n" } := by decide +kernel

/-- /repo/tests/search-forward-past-end.xml -/
example : letI := litExt; (runTest defaultEnv { buffer := b! "Hello world, this is a test buffer.\nThe word \"test\" appears twice here.\nAnother line with test content.", input := b! "\nsearch-forward \"test\"\nsearch-forward \"test\"\nsearch-forward \"test\"\nsearch-forward \"test\"\npoint\n", output := b! "", result := b! "28", resultLang := b! "sexp", error := b! "search failed (at instruction 3: (search-forward \"test\"), point=95, mark=1)" }).map (·.passed) = some true := by decide +kernel
example : parseTestCase plainXml (b! "<buffer>Hello world, this is a test buffer.\nThe word \"test\" appears twice here.\nAnother line with test content.</buffer>\n<input lang=\"shell\">\nsearch-forward \"test\"\nsearch-forward \"test\"\nsearch-forward \"test\"\nsearch-forward \"test\"\npoint\n</input>\n<result lang=\"sexp\">28</result>\n<error>search failed (at instruction 3: (search-forward \"test\"), point=95, mark=1)</error>\n") = some { buffer := b! "Hello world, this is a test buffer.\nThe word \"test\" appears twice here.\nAnother line with test content.", input := b! "\nsearch-forward \"test\"\nsearch-forward \"test\"\nsearch-forward \"test\"\nsearch-forward \"test\"\npoint\n", output := b! "", result := b! "28", resultLang := b! "sexp", error := b! "search failed (at instruction 3: (search-forward \"test\"), point=95, mark=1)" } := by decide +kernel

/-- /repo/tests/search-forward.xml -/
example : letI := litExt; (runTest defaultEnv { buffer := b! "Hello world, this is a test buffer.\nThe word \"test\" appears twice here.\nAnother line with test content.", input := b! "\nsearch-forward \"test\"\npoint\n", output := b! "Hello world, this is a test buffer.\nThe word \"test\" appears twice here.\nAnother line with test content.", result := b! "28", resultLang := b! "sexp", error := b! "\n" }).map (·.passed) = some true := by decide +kernel
example : parseTestCase plainXml (b! "<buffer>Hello world, this is a test buffer.\nThe word \"test\" appears twice here.\nAnother line with test content.</buffer>\n<input lang=\"shell\">\nsearch-forward \"test\"\npoint\n</input>\n<output>Hello world, this is a test buffer.\nThe word \"test\" appears twice here.\nAnother line with test content.</output>\n<result lang=\"sexp\">28</result>\n<error lang=\"sexp\">\n</error>") = some { buffer := b! "Hello world, this is a test buffer.\nThe word \"test\" appears twice here.\nAnother line with test content.", input := b! "\nsearch-forward \"test\"\npoint\n", output := b! "Hello world, this is a test buffer.\nThe word \"test\" appears twice here.\nAnother line with test content.", result := b! "28", resultLang := b! "sexp", error := b! "\n" } := by decide +kernel

/-- /repo/tests/set-mark-command-default.xml -/
example : letI := litExt; (runTest defaultEnv { buffer := b! "Hello world test", input := b! "\ngoto-char 8\nset-mark-command\nmark\n", output := b! "Hello world test", result := b! "8", resultLang := b! "sexp", error := b! "\n" }).map (·.passed) = some true := by decide +kernel
example : parseTestCase plainXml (b! "<buffer>Hello world test</buffer>\n<input lang=\"shell\">\ngoto-char 8\nset-mark-command\nmark\n</input>\n<output>Hello world test</output>\n<result lang=\"sexp\">8</result>\n<error lang=\"sexp\">\n</error>") = some { buffer := b! "Hello world test", input := b! "\ngoto-char 8\nset-mark-command\nmark\n", output := b! "Hello world test", result := b! "8", resultLang := b! "sexp", error := b! "\n" } := by decide +kernel

/-- /repo/tests/set-mark-command.xml -/
example : letI := litExt; (runTest defaultEnv { buffer := b! "Hello world test", input := b! "\nset-mark-command 5\nmark\n", output := b! "Hello world test", result := b! "5", resultLang := b! "sexp", error := b! "\n" }).map (·.passed) = some true := by decide +kernel
example : parseTestCase plainXml (b! "<buffer>Hello world test</buffer>\n<input lang=\"shell\">\nset-mark-command 5\nmark\n</input>\n<output>Hello world test</output>\n<result lang=\"sexp\">5</result>\n<error lang=\"sexp\">\n</error>") = some { buffer := b! "Hello world test", input := b! "\nset-mark-command 5\nmark\n", output := b! "Hello world test", result := b! "5", resultLang := b! "sexp", error := b! "\n" } := by decide +kernel

/-- /repo/tests/set-mark.xml -/
example : letI := litExt; (runTest defaultEnv { buffer := b! "Hello world, this is a test buffer.", input := b! "\ngoto-char 7\nset-mark\nmark\n", output := b! "Hello world, this is a test buffer.", result := b! "7", resultLang := b! "sexp", error := b! "\n" }).map (·.passed) = some true := by decide +kernel
example : parseTestCase plainXml (b! "<buffer>Hello world, this is a test buffer.</buffer>\n<input lang=\"shell\">\ngoto-char 7\nset-mark\nmark\n</input>\n<output>Hello world, this is a test buffer.</output>\n<result lang=\"sexp\">7</result>\n<error lang=\"sexp\">\n</error>") = some { buffer := b! "Hello world, this is a test buffer.", input := b! "\ngoto-char 7\nset-mark\nmark\n", output := b! "Hello world, this is a test buffer.", result := b! "7", resultLang := b! "sexp", error := b! "\n" } := by decide +kernel

/-- /repo/tests/string-match-no-match.xml -/
example : letI := litExt; (runTest defaultEnv { buffer := b! "Test buffer", input := b! "\nstring-match \"xyz\" \"Hello world\"\n", output := b! "Test buffer", result := b! "nil", resultLang := b! "sexp", error := b! "\n" }).map (·.passed) = some true := by decide +kernel
example : parseTestCase plainXml (b! "<buffer>Test buffer</buffer>\n<input lang=\"shell\">\nstring-match \"xyz\" \"Hello world\"\n</input>\n<output>Test buffer</output>\n<result lang=\"sexp\">nil</result>\n<error lang=\"sexp\">\n</error>") = some { buffer := b! "Test buffer", input := b! "\nstring-match \"xyz\" \"Hello world\"\n", output := b! "Test buffer", result := b! "nil", resultLang := b! "sexp", error := b! "\n" } := by decide +kernel

/-- /repo/tests/string-match-regex.xml -/
example : letI := reExt; (runTest defaultEnv { buffer := b! "Test buffer", input := b! "\nstring-match \"[0-9]+\" \"Hello 123 world\"\n", output := b! "Test buffer", result := b! "6", resultLang := b! "sexp", error := b! "\n" }).map (·.passed) = some true := by decide +kernel
example : parseTestCase plainXml (b! "<buffer>Test buffer</buffer>\n<input lang=\"shell\">\nstring-match \"[0-9]+\" \"Hello 123 world\"\n</input>\n<output>Test buffer</output>\n<result lang=\"sexp\">6</result>\n<error lang=\"sexp\">\n</error>") = some { buffer := b! "Test buffer", input := b! "\nstring-match \"[0-9]+\" \"Hello 123 world\"\n", output := b! "Test buffer", result := b! "6", resultLang := b! "sexp", error := b! "\n" } := by decide +kernel

/-- /repo/tests/string-match.xml -/
example : letI := litExt; (runTest defaultEnv { buffer := b! "Test buffer", input := b! "\nstring-match \"wor\" \"Hello world\"\n", output := b! "Test buffer", result := b! "6", resultLang := b! "sexp", error := b! "\n" }).map (·.passed) = some true := by decide +kernel
example : parseTestCase plainXml (b! "<buffer>Test buffer</buffer>\n<input lang=\"shell\">\nstring-match \"wor\" \"Hello world\"\n</input>\n<output>Test buffer</output>\n<result lang=\"sexp\">6</result>\n<error lang=\"sexp\">\n</error>") = some { buffer := b! "Test buffer", input := b! "\nstring-match \"wor\" \"Hello world\"\n", output := b! "Test buffer", result := b! "6", resultLang := b! "sexp", error := b! "\n" } := by decide +kernel

/-- /repo/tests/substring-to-end.xml -/
example : letI := litExt; (runTest defaultEnv { buffer := b! "Test buffer", input := b! "\nsubstring \"Hello world\" 7\n", output := b! "Test buffer", result := b! "\"world\"", resultLang := b! "sexp", error := b! "\n" }).map (·.passed) = some true := by decide +kernel
example : parseTestCase plainXml (b! "<buffer>Test buffer</buffer>\n<input lang=\"shell\">\nsubstring \"Hello world\" 7\n</input>\n<output>Test buffer</output>\n<result lang=\"sexp\">\"world\"</result>\n<error lang=\"sexp\">\n</error>") = some { buffer := b! "Test buffer", input := b! "\nsubstring \"Hello world\" 7\n", output := b! "Test buffer", result := b! "\"world\"", resultLang := b! "sexp", error := b! "\n" } := by decide +kernel

/-- /repo/tests/substring.xml -/
example : letI := litExt; (runTest defaultEnv { buffer := b! "Test buffer", input := b! "\nsubstring \"Hello world\" 1 5\n", output := b! "Test buffer", result := b! "\"Hell\"", resultLang := b! "sexp", error := b! "\n" }).map (·.passed) = some true := by decide +kernel
example : parseTestCase plainXml (b! "<buffer>Test buffer</buffer>\n<input lang=\"shell\">\nsubstring \"Hello world\" 1 5\n</input>\n<output>Test buffer</output>\n<result lang=\"sexp\">\"Hell\"</result>\n<error lang=\"sexp\">\n</error>") = some { buffer := b! "Test buffer", input := b! "\nsubstring \"Hello world\" 1 5\n", output := b! "Test buffer", result := b! "\"Hell\"", resultLang := b! "sexp", error := b! "\n" } := by decide +kernel

/-- /repo/tests/upcase.xml -/
example : letI := litExt; (runTest defaultEnv { buffer := b! "Test buffer", input := b! "\nupcase \"Hello World\"\n", output := b! "Test buffer", result := b! "\"HELLO WORLD\"", resultLang := b! "sexp", error := b! "\n" }).map (·.passed) = some true := by decide +kernel
example : parseTestCase plainXml (b! "<buffer>Test buffer</buffer>\n<input lang=\"shell\">\nupcase \"Hello World\"\n</input>\n<output>Test buffer</output>\n<result lang=\"sexp\">\"HELLO WORLD\"</result>\n<error lang=\"sexp\">\n</error>") = some { buffer := b! "Test buffer", input := b! "\nupcase \"Hello World\"\n", output := b! "Test buffer", result := b! "\"HELLO WORLD\"", resultLang := b! "sexp", error := b! "\n" } := by decide +kernel


end Texted
