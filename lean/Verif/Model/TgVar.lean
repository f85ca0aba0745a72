import Verif.Model.Basic
/- GENERATED by tools/go2tg.py: the variables and the names of the functions in Model/TgSource. -/
namespace Texted

/-- The variables of the functions in Model/TgSource (/repo/edlisp/testing, commands/test.go, commands/doc.go, tools/texted_doc.go). -/
inductive TgVar where
  | actual
  | allDocs
  | args
  | args_failOnly
  | args_includePatterns
  | args_quiet
  | args_testFiles
  | args_trace
  | args_verbose
  | basename
  | blank
  | buffer
  | cat
  | catDocs
  | catName
  | categories
  | category
  | category2
  | category3
  | categoryMap
  | categorySet
  | content
  | ctx
  | d
  | doc
  | doc2
  | doc3
  | docs
  | env
  | err
  | err2
  | errorMsg
  | evalErr
  | evalResult
  | «example»
  | exists
  | expected
  | expectedError
  | expectedResult
  | expectedValue
  | expectedValues
  | file
  | filename
  | filesToTest
  | filtered
  | functionName
  | hasOutputExpectation
  | hasResultExpectation
  | i
  | input
  | instruction
  | lang
  | list
  | matched
  | matches
  | name
  | num
  | optional
  | output
  | param
  | parts
  | passedTests
  | pattern
  | program
  | r
  | related
  | request
  | result
  | result2
  | results
  | status
  | str
  | suggestions
  | sym
  | testCase
  | testFile
  | title
  | tmp1
  | tmp2
  | tmp3
  | tmp4
  | tmp5
  | tmp6
  | totalTests
  | traceCallback
  | value
  | verbose
  | wrappedXML
  | wrapper
  deriving DecidableEq

/-- The functions in Model/TgSource. -/
inductive TgFn where
  | parseTestCase
  | parseTestFile
  | runTest
  | runTestWithTrace
  | runTestFile
  | runTestFileWithTrace
  | formatValue
  | runTests
  | printTestResult
  | createTraceCallback
  | formatInstruction
  | registerDocumentation
  | getDocumentation
  | getAllDocumentation
  | getDocumentationByCategory
  | getCategories
  | getRegisteredFunctionCount
  | textedDocHandler
  | handleFunctionDoc
  | handleCategoryListing
  | handleAllFunctions
  | formatFunctionDoc
  | formatFunctionList
  | runDoc
  | showFunctionDoc
  | listFunctions
  | traceHook
  deriving DecidableEq

end Texted
