import Verif.Model.Value
/- GENERATED by tools/go2pg.py: the variables and the names of the functions in Model/PgSource. -/
namespace Texted

/-- The variables of the functions in Model/PgSource (/repo/edlisp: parser, eval.go, error.go, equal.go, list.go, writer). -/
inductive PgVar where
  | a
  | aList
  | aNum
  | aStr
  | aSym
  | args
  | arr
  | b
  | bList
  | bNum
  | bStr
  | bSym
  | blank
  | buffer
  | command
  | commands
  | converted
  | current
  | currentInstruction
  | e
  | element
  | elements
  | env
  | err
  | err2
  | err3
  | escapeNext
  | evaluatedArg
  | exists
  | expr
  | expressions
  | firstElem
  | firstElement
  | fn
  | fnName
  | format
  | i
  | inQuotes
  | index
  | input
  | instructionIndex
  | isTopLevel
  | item
  | jsonArray
  | jsonValue
  | line
  | list
  | newPos
  | num
  | ok
  | originalError
  | part
  | parts
  | pos
  | program
  | r
  | rawValue
  | rawValues
  | result
  | rv
  | s
  | scanner
  | shown
  | start
  | str
  | sym
  | symbol
  | tmp1
  | tmp2
  | tmp3
  | tmp4
  | tmp5
  | tmp6
  | tmp7
  | tmp8
  | token
  | tokens
  | traceCallback
  | trimmed
  | unquoted
  | v
  | v2
  | v3
  | v4
  | val
  | value
  | w
  deriving DecidableEq

/-- The functions in Model/PgSource. -/
inductive PgFn where
  | ParseReader
  | ParseString
  | ParseSexp
  | ParseFormat
  | parseLine
  | parseSExpression
  | parseShellLike
  | tokenize
  | parseTokens
  | parseList
  | splitOnSemicolons
  | parseToken
  | ParseJSONString
  | convertJSONValue
  | convertJSONArray
  | convertJSONItem
  | ValidateJSONFormat
  | validateJSONValue
  | Eval
  | EvalWithTrace
  | evalExpression
  | NewExecutionError
  | errorMessage
  | Equal
  | listString
  | listLen
  | listIsEmpty
  | listGet
  | numberString
  | symbolString
  | stringString
  | valueToJSON
  | valueToShellString
  | valueToToken
  | verb
  deriving DecidableEq

end Texted
