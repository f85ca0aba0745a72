import Verif.Model.Script
import Verif.Lemmas.LitExt
/- Generated by tools/docexamples.py from the examples of /repo/edlisp/builtin_*.go. They test the model's fidelity; they are not proofs of properties. -/
namespace Texted

/-- The value of the last instruction is shown as `out`, or (if the value is the empty string) the buffer contains `out` in the end. -/
def exampleHolds (buffer input out : Bytes) : Bool := letI := litExt
  match parseString input with
  | .ok p => match eval defaultEnv p (newBuffer buffer) with
    | (.ok (.str []), b) => b.content == out || out == b! "\"\""
    | (.ok v, b) => v.toStr == out || b.content == out
    | _ => false
  | _ => false

example : exampleHolds (b! "Hello world") (b! "goto-char 6; backward-char; point") (b! "5") = true := by decide +kernel
example : exampleHolds (b! "Hello world") (b! "goto-char 8; backward-char 3; point") (b! "5") = true := by decide +kernel
example : exampleHolds (b! "Hello world test") (b! "goto-char 17; backward-kill-word; buffer-substring 1 -1") (b! "Hello world ") = true := by decide +kernel
example : exampleHolds (b! "Hello world test buffer content") (b! "goto-char 25; backward-kill-word 2; buffer-substring 1 -1") (b! "Hello world ontent") = true := by decide +kernel
example : exampleHolds (b! "Hello world test") (b! "goto-char 15; backward-word; point") (b! "13") = true := by decide +kernel
example : exampleHolds (b! "Hello world test buffer") (b! "goto-char 20; backward-word 2; point") (b! "13") = true := by decide +kernel
example : exampleHolds (b! "Hello world\nSecond line\nThird line") (b! "goto-char 20; beginning-of-buffer; point") (b! "1") = true := by decide +kernel
example : exampleHolds (b! "") (b! "beginning-of-buffer; point") (b! "1") = true := by decide +kernel
example : exampleHolds (b! "1\n3 5\n7") (b! "search-forward \"5\"; beginning-of-line; point") (b! "3") = true := by decide +kernel
example : exampleHolds (b! "Hello world") (b! "goto-char 5; beginning-of-line; point") (b! "1") = true := by decide +kernel
example : exampleHolds (b! "Hello world test buffer") (b! "buffer-size") (b! "23") = true := by decide +kernel
example : exampleHolds (b! "") (b! "buffer-size") (b! "0") = true := by decide +kernel
example : exampleHolds (b! "Hello world") (b! "buffer-substring 1 6") (b! "\"Hello\"") = true := by decide +kernel
example : exampleHolds (b! "Hello world") (b! "buffer-substring 7 -1") (b! "\"world\"") = true := by decide +kernel
example : exampleHolds (b! "Hello world") (b! "buffer-substring 5 5") (b! "\"\"") = true := by decide +kernel
example : exampleHolds (b! "") (b! "capitalize \"hello world\"") (b! "\"Hello world\"") = true := by decide +kernel
example : exampleHolds (b! "") (b! "capitalize \"HELLO WORLD\"") (b! "\"Hello world\"") = true := by decide +kernel
example : exampleHolds (b! "") (b! "concat \"Hello\" \" world\"") (b! "\"Hello world\"") = true := by decide +kernel
example : exampleHolds (b! "") (b! "concat \"Hello\" \" \" \"beautiful\" \" \" \"world\"") (b! "\"Hello beautiful world\"") = true := by decide +kernel
example : exampleHolds (b! "First line\nSecond line with content\nThird line") (b! "goto-char 25; current-column") (b! "14") = true := by decide +kernel
example : exampleHolds (b! "123") (b! "forward-char; delete-backward-char") (b! "23") = true := by decide +kernel
example : exampleHolds (b! "Hello") (b! "forward-char 2; delete-backward-char 2") (b! "llo") = true := by decide +kernel
example : exampleHolds (b! "Hello world") (b! "goto-char 6; delete-char") (b! "Helloworld") = true := by decide +kernel
example : exampleHolds (b! "Hello") (b! "delete-char 3") (b! "lo") = true := by decide +kernel
example : exampleHolds (b! "First line\nSecond line\nThird line") (b! "goto-char 15; delete-line") (b! "First line\nThird line") = true := by decide +kernel
example : exampleHolds (b! "First line\nSecond line\nThird line\nFourth line") (b! "goto-char 15; delete-line 2") (b! "First line\nFourth line") = true := by decide +kernel
example : exampleHolds (b! "Hello old world, this is a test.") (b! "goto-char 7; set-mark; goto-char 10; delete-region") (b! "Hello  world, this is a test.") = true := by decide +kernel
example : exampleHolds (b! "") (b! "downcase \"Hello World\"") (b! "\"hello world\"") = true := by decide +kernel
example : exampleHolds (b! "") (b! "downcase \"TEST123\"") (b! "\"test123\"") = true := by decide +kernel
example : exampleHolds (b! "Hello world") (b! "goto-char 1; end-of-buffer; point") (b! "12") = true := by decide +kernel
example : exampleHolds (b! "") (b! "end-of-buffer; point") (b! "1") = true := by decide +kernel
example : exampleHolds (b! "One\nTwo\nThree") (b! "search-forward \"T\"; end-of-line; point") (b! "8") = true := by decide +kernel
example : exampleHolds (b! "Hello world") (b! "beginning-of-line; end-of-line; point") (b! "12") = true := by decide +kernel
example : exampleHolds (b! "Hello world") (b! "goto-char 5; forward-char; point") (b! "6") = true := by decide +kernel
example : exampleHolds (b! "Hello world") (b! "goto-char 1; forward-char 3; point") (b! "4") = true := by decide +kernel
example : exampleHolds (b! "Hello world test") (b! "goto-char 3; forward-word; point") (b! "6") = true := by decide +kernel
example : exampleHolds (b! "Hello world test buffer") (b! "goto-char 1; forward-word 2; point") (b! "12") = true := by decide +kernel
example : exampleHolds (b! "") (b! "insert \"hello, world\"") (b! "hello, world") = true := by decide +kernel
example : exampleHolds (b! "hello world") (b! "goto-char 6; insert \" beautiful\"") (b! "hello beautiful world") = true := by decide +kernel
example : exampleHolds (b! "First line content\nSecond line content\nThird line") (b! "goto-char 8; kill-line") (b! "First li\nSecond line content\nThird line") = true := by decide +kernel
example : exampleHolds (b! "First line\nSecond line\nThird line\nFourth line") (b! "goto-char 1; kill-line 2") (b! "Third line\nFourth line") = true := by decide +kernel
example : exampleHolds (b! "Hello world test") (b! "goto-char 3; kill-word; buffer-substring 1 -1") (b! "He world test") = true := by decide +kernel
example : exampleHolds (b! "Hello world test buffer content") (b! "goto-char 1; kill-word 2; buffer-substring 1 -1") (b! " test buffer content") = true := by decide +kernel
example : exampleHolds (b! "") (b! "length \"Hello world\"") (b! "11") = true := by decide +kernel
example : exampleHolds (b! "") (b! "length \"\"") (b! "0") = true := by decide +kernel
example : exampleHolds (b! "Hello world") (b! "line-number-at-pos") (b! "1") = true := by decide +kernel
example : exampleHolds (b! "First line\nSecond line\nThird line") (b! "goto-char 15; line-number-at-pos") (b! "2") = true := by decide +kernel
example : exampleHolds (b! "First line\nSecond line\nThird line") (b! "goto-char 25; line-number-at-pos") (b! "3") = true := by decide +kernel
example : exampleHolds (b! "Hello world") (b! "goto-char 3; set-mark-command; mark") (b! "3") = true := by decide +kernel
example : exampleHolds (b! "Hello world") (b! "point") (b! "1") = true := by decide +kernel
example : exampleHolds (b! "Hello world") (b! "goto-char 5; point") (b! "5") = true := by decide +kernel
example : exampleHolds (b! "Hello world") (b! "goto-char 12; point") (b! "12") = true := by decide +kernel
example : exampleHolds (b! "Hello world test") (b! "point-max") (b! "17") = true := by decide +kernel
example : exampleHolds (b! "") (b! "point-max") (b! "1") = true := by decide +kernel
example : exampleHolds (b! "Hello world") (b! "point-min") (b! "1") = true := by decide +kernel
example : exampleHolds (b! "") (b! "point-min") (b! "1") = true := by decide +kernel
example : exampleHolds (b! "Hello old world, this is a test.") (b! "goto-char 7; set-mark; goto-char 10; replace-region \"new\"") (b! "Hello new world, this is a test.") = true := by decide +kernel
example : exampleHolds (b! "") (b! "substring \"Hello world\" 1 5") (b! "\"Hell\"") = true := by decide +kernel
example : exampleHolds (b! "") (b! "substring \"Hello world\" 7") (b! "\"world\"") = true := by decide +kernel
example : exampleHolds (b! "") (b! "upcase \"Hello World\"") (b! "\"HELLO WORLD\"") = true := by decide +kernel
example : exampleHolds (b! "") (b! "upcase \"test123\"") (b! "\"TEST123\"") = true := by decide +kernel

end Texted
