import Verif.Model.Value
/- GENERATED by tools/go2lean.py: the names of the variables of the translated functions. -/
namespace Texted

/-- The variables of the functions in Model/GoSource (/repo/edlisp/builtin_*.go, eval.go:72-86, helpers.go:4-6). -/
inductive GoVar where
  | arg
  | args
  | beforeText
  | ch
  | column
  | content
  | count
  | «end»
  | endIndex
  | endPos
  | err
  | i
  | index
  | lineEnd
  | lineNum
  | lineStart
  | lines
  | mark
  | «match»
  | matchEnd
  | matchStart
  | matches
  | newContent
  | newPos
  | num
  | pattern
  | point
  | pos
  | re
  | replacement
  | result
  | searchArea
  | start
  | startPos
  | str
  | text
  deriving DecidableEq

end Texted
