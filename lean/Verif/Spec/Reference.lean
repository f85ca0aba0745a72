import Verif.Model.Docs
/- Generated by tools/reference.py from the headings of /repo/docs/functions.md. -/
namespace Texted.Spec
open Texted

/-- A heading of the function reference: the name and the parameters, those in brackets optional. The reference gives no types; here a
count, position, line number, index, start or end is a number, and what is called a string, regexp or replacement is a string; of the
others (lists, items, conditions, expressions) the name stands for the type. -/
structure RefEntry where
  name : Bytes
  parameters : List ParamSig
  deriving DecidableEq

/-- /repo/docs/functions.md, heading by heading. -/
def functionReference : List RefEntry := [
  -- line 22
  ⟨b! "search-forward", [⟨b! "string", b! "string", false⟩]⟩,
  -- line 26
  ⟨b! "search-backward", [⟨b! "string", b! "string", false⟩]⟩,
  -- line 30
  ⟨b! "re-search-forward", [⟨b! "regexp", b! "string", false⟩]⟩,
  -- line 34
  ⟨b! "re-search-backward", [⟨b! "regexp", b! "string", false⟩]⟩,
  -- line 38
  ⟨b! "goto-char", [⟨b! "position", b! "number", false⟩]⟩,
  -- line 42
  ⟨b! "goto-line", [⟨b! "line-number", b! "number", false⟩]⟩,
  -- line 46
  ⟨b! "beginning-of-line", []⟩,
  -- line 50
  ⟨b! "end-of-line", []⟩,
  -- line 54
  ⟨b! "beginning-of-buffer", []⟩,
  -- line 58
  ⟨b! "end-of-buffer", []⟩,
  -- line 62
  ⟨b! "forward-char", [⟨b! "count", b! "number", true⟩]⟩,
  -- line 66
  ⟨b! "backward-char", [⟨b! "count", b! "number", true⟩]⟩,
  -- line 70
  ⟨b! "forward-word", [⟨b! "count", b! "number", true⟩]⟩,
  -- line 74
  ⟨b! "backward-word", [⟨b! "count", b! "number", true⟩]⟩,
  -- line 80
  ⟨b! "set-mark", []⟩,
  -- line 84
  ⟨b! "set-mark-command", [⟨b! "position", b! "number", true⟩]⟩,
  -- line 88
  ⟨b! "exchange-point-and-mark", []⟩,
  -- line 92
  ⟨b! "mark-whole-buffer", []⟩,
  -- line 96
  ⟨b! "mark-word", [⟨b! "count", b! "number", true⟩]⟩,
  -- line 100
  ⟨b! "mark-line", [⟨b! "count", b! "number", true⟩]⟩,
  -- line 106
  ⟨b! "replace-region", [⟨b! "string", b! "string", false⟩]⟩,
  -- line 110
  ⟨b! "replace-match", [⟨b! "string", b! "string", false⟩]⟩,
  -- line 114
  ⟨b! "insert", [⟨b! "string", b! "string", false⟩]⟩,
  -- line 118
  ⟨b! "delete-char", [⟨b! "count", b! "number", true⟩]⟩,
  -- line 122
  ⟨b! "delete-backward-char", [⟨b! "count", b! "number", true⟩]⟩,
  -- line 126
  ⟨b! "delete-region", []⟩,
  -- line 130
  ⟨b! "delete-line", [⟨b! "count", b! "number", true⟩]⟩,
  -- line 134
  ⟨b! "kill-line", [⟨b! "count", b! "number", true⟩]⟩,
  -- line 138
  ⟨b! "kill-word", [⟨b! "count", b! "number", true⟩]⟩,
  -- line 142
  ⟨b! "backward-kill-word", [⟨b! "count", b! "number", true⟩]⟩,
  -- line 148
  ⟨b! "point", []⟩,
  -- line 152
  ⟨b! "mark", []⟩,
  -- line 156
  ⟨b! "point-min", []⟩,
  -- line 160
  ⟨b! "point-max", []⟩,
  -- line 164
  ⟨b! "buffer-size", []⟩,
  -- line 168
  ⟨b! "line-number-at-pos", [⟨b! "position", b! "number", true⟩]⟩,
  -- line 172
  ⟨b! "current-column", []⟩,
  -- line 176
  ⟨b! "region-beginning", []⟩,
  -- line 180
  ⟨b! "region-end", []⟩,
  -- line 184
  ⟨b! "buffer-substring", [⟨b! "start", b! "number", false⟩, ⟨b! "end", b! "number", false⟩]⟩,
  -- line 188
  ⟨b! "looking-at", [⟨b! "regexp", b! "string", false⟩]⟩,
  -- line 192
  ⟨b! "looking-back", [⟨b! "regexp", b! "string", false⟩]⟩,
  -- line 198
  ⟨b! "length", [⟨b! "string", b! "string", false⟩]⟩,
  -- line 202
  ⟨b! "substring", [⟨b! "string", b! "string", false⟩, ⟨b! "start", b! "number", false⟩, ⟨b! "end", b! "number", true⟩]⟩,
  -- line 206
  ⟨b! "concat", [⟨b! "string1", b! "string", false⟩, ⟨b! "string2", b! "string", false⟩]⟩,
  -- line 210
  ⟨b! "upcase", [⟨b! "string", b! "string", false⟩]⟩,
  -- line 214
  ⟨b! "downcase", [⟨b! "string", b! "string", false⟩]⟩,
  -- line 218
  ⟨b! "capitalize", [⟨b! "string", b! "string", false⟩]⟩,
  -- line 222
  ⟨b! "string-match", [⟨b! "regexp", b! "string", false⟩, ⟨b! "string", b! "string", false⟩]⟩,
  -- line 226
  ⟨b! "replace-regexp-in-string", [⟨b! "regexp", b! "string", false⟩, ⟨b! "replacement", b! "string", false⟩, ⟨b! "string", b! "string", false⟩]⟩,
  -- line 232
  ⟨b! "list", [⟨b! "item1", b! "item1", false⟩, ⟨b! "item2", b! "item2", false⟩]⟩,
  -- line 236
  ⟨b! "length", [⟨b! "list", b! "list", false⟩]⟩,
  -- line 240
  ⟨b! "nth", [⟨b! "index", b! "number", false⟩, ⟨b! "list", b! "list", false⟩]⟩,
  -- line 244
  ⟨b! "first", [⟨b! "list", b! "list", false⟩]⟩,
  -- line 248
  ⟨b! "rest", [⟨b! "list", b! "list", false⟩]⟩,
  -- line 252
  ⟨b! "append", [⟨b! "list1", b! "list1", false⟩, ⟨b! "list2", b! "list2", false⟩]⟩,
  -- line 258
  ⟨b! "+", [⟨b! "number1", b! "number", false⟩, ⟨b! "number2", b! "number", false⟩]⟩,
  -- line 262
  ⟨b! "-", [⟨b! "number1", b! "number", false⟩, ⟨b! "number2", b! "number", false⟩]⟩,
  -- line 266
  ⟨b! "*", [⟨b! "number1", b! "number", false⟩, ⟨b! "number2", b! "number", false⟩]⟩,
  -- line 270
  ⟨b! "/", [⟨b! "number1", b! "number", false⟩, ⟨b! "number2", b! "number", false⟩]⟩,
  -- line 274
  ⟨b! "=", [⟨b! "number1", b! "number", false⟩, ⟨b! "number2", b! "number", false⟩]⟩,
  -- line 278
  ⟨b! "<", [⟨b! "number1", b! "number", false⟩, ⟨b! "number2", b! "number", false⟩]⟩,
  -- line 282
  ⟨b! ">", [⟨b! "number1", b! "number", false⟩, ⟨b! "number2", b! "number", false⟩]⟩,
  -- line 286
  ⟨b! "<=", [⟨b! "number1", b! "number", false⟩, ⟨b! "number2", b! "number", false⟩]⟩,
  -- line 290
  ⟨b! ">=", [⟨b! "number1", b! "number", false⟩, ⟨b! "number2", b! "number", false⟩]⟩,
  -- line 296
  ⟨b! "progn", [⟨b! "expression1", b! "expression1", false⟩, ⟨b! "expression2", b! "expression2", false⟩]⟩,
  -- line 300
  ⟨b! "if", [⟨b! "condition", b! "condition", false⟩, ⟨b! "then-expression", b! "then-expression", false⟩, ⟨b! "else-expression", b! "else-expression", true⟩]⟩,
  -- line 304
  ⟨b! "when", [⟨b! "condition", b! "condition", false⟩, ⟨b! "expression1", b! "expression1", false⟩, ⟨b! "expression2", b! "expression2", false⟩]⟩,
  -- line 308
  ⟨b! "unless", [⟨b! "condition", b! "condition", false⟩, ⟨b! "expression1", b! "expression1", false⟩, ⟨b! "expression2", b! "expression2", false⟩]⟩,
  -- line 312
  ⟨b! "and", [⟨b! "expression1", b! "expression1", false⟩, ⟨b! "expression2", b! "expression2", false⟩]⟩,
  -- line 316
  ⟨b! "or", [⟨b! "expression1", b! "expression1", false⟩, ⟨b! "expression2", b! "expression2", false⟩]⟩,
  -- line 320
  ⟨b! "not", [⟨b! "expression", b! "expression", false⟩]⟩]

end Texted.Spec
