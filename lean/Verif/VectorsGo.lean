import Verif.Model.Script
import Verif.Model.Writer
import Verif.Lemmas.LitExt
/- Cases from the repository's Go tests of the parsers, the writers and the evaluator (/repo/edlisp/parser/linebased_test.go,
/repo/edlisp/parser/json_test.go, /repo/edlisp/writer/*_test.go, /repo/edlisp/equal_test.go), run through the model. They test the model's
fidelity; they are not proofs of properties. -/
namespace Texted

/-- What the S-expression writer prints of a parsed program. -/
private def shown (r : Res Bytes (List Value)) : Option Bytes :=
  letI := litExt
  match r with
  | .ok p => some (writeSexp p).out
  | _ => none

private def shownE (r : Except Bytes (List Value)) : Option Bytes := shown (Res.ofExcept r)

/-- /repo/edlisp/parser/linebased_test.go -/
example : shown (parseString []) = some [] ∧
    shown (parseString b! "search-forward \"doIt\"") = some b! "(search-forward \"doIt\")\n" ∧
    shown (parseString b! "(search-forward \"doIt\")") = some b! "(search-forward \"doIt\")\n" ∧
    shown (parseString b! "search-forward \"doIt\"\nset-mark\nsearch-forward \"(\"\nreplace-region \"helloWorld\"") =
      some b! "(search-forward \"doIt\")\n(set-mark)\n(search-forward \"(\")\n(replace-region \"helloWorld\")\n" ∧
    shown (parseString b! "move-point 42") = some b! "(move-point 42)\n" ∧
    shown (parseString b! "set-value 3.14") = some b! "(set-value 3.14)\n" ∧
    shown (parseString b! "set-value 1234.5678") = some b! "(set-value 1234.5678)\n" ∧
    shown (parseString b! "(progn (search-forward \"test\") (set-mark))") = some b! "(progn (search-forward \"test\") (set-mark))\n" ∧
    shown (parseString b! "search-forward \"say \\\"hello\\\"\"") = some b! "(search-forward \"say \\\"hello\\\"\")\n" ∧
    shown (parseString b! "   search-forward \"test\"\n\tset-mark") = some b! "(search-forward \"test\")\n(set-mark)\n" ∧
    shown (parseString b! "search-forward \"test\"\n\nset-mark\n\nreplace-match \"hello\"") =
      some b! "(search-forward \"test\")\n(set-mark)\n(replace-match \"hello\")\n" := by
  decide +kernel

/-- /repo/edlisp/parser/linebased_test.go: `TestParseString_ErrorCases`, `TestTokenize` -/
example : shown (parseString b! "search-forward \"unterminated") = none ∧
    shown (parseString b! "(search-forward \"test\"") = none ∧
    shown (parseString b! "search-forward \"test\")") = none ∧
    shown (parseString b! "search-forward \"invalid\\x\"") = none ∧
    tokenize b! "search-forward \"test\"" = .ok [b! "search-forward", b! "\"test\""] ∧
    tokenize b! "(set-mark)" = .ok [b! "(", b! "set-mark", b! ")"] ∧
    tokenize b! "func arg1 arg2" = .ok [b! "func", b! "arg1", b! "arg2"] ∧
    tokenize b! "\"string with spaces\"" = .ok [b! "\"string with spaces\""] ∧
    tokenize b! "(nested (list))" = .ok [b! "(", b! "nested", b! "(", b! "list", b! ")", b! ")"] := by
  decide +kernel

/-- /repo/edlisp/parser/linebased_test.go: nested expressions -/
example : shown (parseString b! "buffer-substring (region-beginning) (region-end)") = some b! "(buffer-substring (region-beginning) (region-end))\n" ∧
    shown (parseString b! "(outer (middle (inner \"value\")) 42)") = some b! "(outer (middle (inner \"value\")) 42)\n" ∧
    shown (parseString b! "(replace-region (buffer-substring (region-beginning) (region-end)))") =
      some b! "(replace-region (buffer-substring (region-beginning) (region-end)))\n" := by
  decide +kernel

/-- /repo/edlisp/parser/json_test.go -/
example : shownE (parseJsonString b! "[[\"search-forward\", \"doIt\"]]") = some b! "(search-forward \"doIt\")\n" ∧
    shownE (parseJsonString b! "[\n\t\t[\"search-forward\", \"doIt\"],\n\t\t[\"set-mark\"],\n\t\t[\"search-forward\", \"(\"],\n\t\t[\"replace-region\", \"helloWorld\"]\n\t]") =
      some b! "(search-forward \"doIt\")\n(set-mark)\n(search-forward \"(\")\n(replace-region \"helloWorld\")\n" ∧
    shownE (parseJsonString b! "[[\"move-point\", 42], [\"set-value\", 3.14]]") = some b! "(move-point 42)\n(set-value 3.14)\n" ∧
    shownE (parseJsonString b! "[[\"progn\", [\"search-forward\", \"test\"], [\"set-mark\"]]]") = some b! "(progn (search-forward \"test\") (set-mark))\n" ∧
    parseJsonString b! "[[]]" = .ok [.list []] ∧
    shownE (parseJsonReader b! "[\"search-forward\", \"test\"]\n[\"set-mark\"]\n[\"replace-match\", \"hello\"]") =
      some b! "(search-forward \"test\")\n(set-mark)\n(replace-match \"hello\")\n" ∧
    shownE (parseJsonString b! "[[42, \"test\"]]") = none ∧ shownE (parseJsonString b! "[\"not-array\"]") = none ∧
    shownE (parseJsonString b! "[42]") = none ∧ shownE (parseJsonString b! "[[\"command\", true]]") = none ∧
    shownE (parseJsonString b! "[[\"command\", null]]") = none ∧ shownE (parseJsonString b! "[[\"command\", {\"key\": \"value\"}]]") = none ∧
    shownE (parseJsonString b! "[[\"command\", \"test\"") = none := by
  decide +kernel

private def n (i : Int) : Value := .num (F64.ofInt i)

/-- /repo/edlisp/writer/*_test.go -/
example : letI := litExt
    writeShell [.list [.sym b! "search-forward", .str b! "text"]] = ⟨b! "search-forward \"text\"\n", none⟩ ∧
    writeShell [.list []] = ⟨b! "\n", none⟩ ∧
    writeShell [.list [.sym b! "move", n 42]] = ⟨b! "move 42\n", none⟩ ∧
    writeShell [.list [.sym b! "move", n (-5)]] = ⟨b! "move -5\n", none⟩ ∧
    writeShell [.list [.sym b! "move", n 0]] = ⟨b! "move 0\n", none⟩ ∧
    writeShell [.list [.sym b! "test", .str b! "hello \"world\""]] = ⟨b! "test \"hello \\\"world\\\"\"\n", none⟩ ∧
    writeShell [.list [.sym b! "test", .str b! "hello\nworld"]] = ⟨b! "test \"hello\\nworld\"\n", none⟩ ∧
    writeShell [.list [.sym b! "test", .str b! "hello\\world"]] = ⟨b! "test \"hello\\\\world\"\n", none⟩ ∧
    writeShell [.list [.sym b! "test", .str []]] = ⟨b! "test \"\"\n", none⟩ ∧
    (writeShell [.list [.sym b! "test", .list []]]).err.isSome ∧ (writeShell [n 1]).err.isSome ∧
    writeJson [.sym b! "search-forward", .str b! "hello world", n 42, n 0, n (-123)] = ⟨b! "\"search-forward\"\n\"hello world\"\n42\n0\n-123\n", none⟩ ∧
    writeJson [.list [.sym b! "search-forward", .str b! "doIt"], .list [.sym b! "set-mark"]] =
      ⟨b! "[\"search-forward\",\"doIt\"]\n[\"set-mark\"]\n", none⟩ ∧
    writeSexp [.str b! "text with \"quotes\" and \n newlines"] = ⟨b! "\"text with \\\"quotes\\\" and \\n newlines\"\n", none⟩ := by
  decide +kernel

end Texted
