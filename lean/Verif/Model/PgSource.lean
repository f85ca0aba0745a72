import Verif.Model.Pg
/- GENERATED by tools/go2pg.py from /repo: functions as they are written in Go. Do not edit. -/
namespace Texted

/-- /repo/edlisp/parser/linebased.go:21-52 `ParseReader` -/
def pgParseReader : PgS :=
  (.seq (.set .scanner (.call .newScanner (.cons (.var .r) .nil))) <|
  .seq (.set .expressions .noVals) <|
  .seq (.forScan .scanner
    (.seq (.set .line (.call .trimLeft (.cons (.call .scanText (.cons (.var .scanner) .nil)) .nil))) <|
    .seq (.if_ (.bin .eq (.var .line) (.str (b! "")))
      .cont
      .skip) <|
    .seq (.callFn [.tmp1] .splitOnSemicolons (.cons (.var .line) .nil)) <|
    .seq (.set .commands (.var .tmp1)) <|
    (.range .blank .command (.var .commands)
      (.seq (.set .command (.call .trimSpace (.cons (.var .command) .nil))) <|
      .seq (.if_ (.bin .eq (.var .command) (.str (b! "")))
        .cont
        .skip) <|
      .seq (.callFn [.expr, .err] .parseLine (.cons (.var .command) .nil)) <|
      .seq (.if_ (.bin .ne (.var .err) .nil)
        (.ret (.cons .nil (.cons (.var .err) .nil)))
        .skip) <|
      (.set .expressions (.call .append (.cons (.var .expressions) (.cons (.var .expr) .nil)))))))) <|
  .seq (.set .err2 (.call .scanErr (.cons (.var .scanner) .nil))) <|
  .seq (.if_ (.bin .ne (.var .err2) .nil)
    (.ret (.cons .nil (.cons (.call .errorf (.cons (.str (b! "reading input: ")) (.cons (.var .err2) .nil))) .nil)))
    .skip) <|
  (.ret (.cons (.var .expressions) (.cons .nil .nil))))

/-- /repo/edlisp/parser/linebased.go:55-57 `ParseString` -/
def pgParseString : PgS :=
  (.seq (.callFn [.tmp1, .tmp2] .ParseReader (.cons (.call .newReader (.cons (.var .s) .nil)) .nil)) <|
  (.ret (.cons (.var .tmp1) (.cons (.var .tmp2) .nil))))

/-- /repo/edlisp/parser/linebased.go:61-83 `ParseSexp` -/
def pgParseSexp : PgS :=
  (.seq (.set .trimmed (.call .trimSpace (.cons (.var .s) .nil))) <|
  .seq (.if_ (.bin .eq (.var .trimmed) (.str (b! "")))
    (.ret (.cons .noVals (.cons .nil .nil)))
    .skip) <|
  .seq (.if_ (.call .hasPrefix (.cons (.var .trimmed) (.cons (.str (b! "(")) .nil)))
    (.seq (.callFn [.expr, .err] .parseSExpression (.cons (.var .trimmed) .nil)) <|
    .seq (.if_ (.bin .ne (.var .err) .nil)
      (.ret (.cons .nil (.cons (.var .err) .nil)))
      .skip) <|
    (.ret (.cons (.call .append (.cons .noVals (.cons (.var .expr) .nil))) (.cons .nil .nil))))
    .skip) <|
  .seq (.callFn [.value, .err2] .parseToken (.cons (.var .trimmed) .nil)) <|
  .seq (.if_ (.bin .ne (.var .err2) .nil)
    (.ret (.cons .nil (.cons (.var .err2) .nil)))
    .skip) <|
  (.ret (.cons (.call .append (.cons .noVals (.cons (.var .value) .nil))) (.cons .nil .nil))))

/-- /repo/edlisp/parser/linebased.go:88-100 `ParseFormat` -/
def pgParseFormat : PgS :=
  (.if_ (.bin .or (.bin .eq (.var .format) (.str (b! "sexp"))) (.bin .eq (.var .format) (.str (b! ""))))
    (.seq (.callFn [.tmp1, .tmp2] .ParseSexp (.cons (.var .input) .nil)) <|
      (.ret (.cons (.var .tmp1) (.cons (.var .tmp2) .nil))))
    (.if_ (.bin .eq (.var .format) (.str (b! "shell")))
    (.seq (.callFn [.tmp3, .tmp4] .ParseString (.cons (.var .input) .nil)) <|
      (.ret (.cons (.var .tmp3) (.cons (.var .tmp4) .nil))))
    (.if_ (.bin .eq (.var .format) (.str (b! "json")))
    (.seq (.callFn [.tmp5, .tmp6] .ParseJSONString (.cons (.var .input) .nil)) <|
      (.ret (.cons (.var .tmp5) (.cons (.var .tmp6) .nil))))
    (.seq (.callFn [.tmp7, .tmp8] .ParseSexp (.cons (.var .input) .nil)) <|
      (.ret (.cons (.var .tmp7) (.cons (.var .tmp8) .nil)))))))

/-- /repo/edlisp/parser/linebased.go:103-108 `parseLine` -/
def pgParseLine : PgS :=
  (.seq (.if_ (.call .hasPrefix (.cons (.var .line) (.cons (.str (b! "(")) .nil)))
    (.seq (.callFn [.tmp1, .tmp2] .parseSExpression (.cons (.var .line) .nil)) <|
    (.ret (.cons (.var .tmp1) (.cons (.var .tmp2) .nil))))
    .skip) <|
  .seq (.callFn [.tmp3, .tmp4] .parseShellLike (.cons (.var .line) .nil)) <|
  (.ret (.cons (.var .tmp3) (.cons (.var .tmp4) .nil))))

/-- /repo/edlisp/parser/linebased.go:111-119 `parseSExpression` -/
def pgParseSExpression : PgS :=
  (.seq (.callFn [.tokens, .err] .tokenize (.cons (.var .line) .nil)) <|
  .seq (.if_ (.bin .ne (.var .err) .nil)
    (.ret (.cons .nil (.cons (.var .err) .nil)))
    .skip) <|
  .seq (.callFn [.expr, .blank, .err] .parseTokens (.cons (.var .tokens) (.cons (.int 0) .nil))) <|
  (.ret (.cons (.var .expr) (.cons (.var .err) .nil))))

/-- /repo/edlisp/parser/linebased.go:122-156 `parseShellLike` -/
def pgParseShellLike : PgS :=
  (.seq (.callFn [.tokens, .err] .tokenize (.cons (.var .line) .nil)) <|
  .seq (.if_ (.bin .ne (.var .err) .nil)
    (.ret (.cons .nil (.cons (.var .err) .nil)))
    .skip) <|
  .seq (.set .elements .noVals) <|
  .seq (.set .pos (.int 0)) <|
  .seq (.while (.bin .lt (.var .pos) (.call .len (.cons (.var .tokens) .nil))) .skip
    (.seq (.set .token (.call .index (.cons (.var .tokens) (.cons (.var .pos) .nil)))) <|
    (.if_ (.bin .eq (.var .token) (.str (b! "(")))
      (.seq (.callFn [.expr, .newPos, .err2] .parseTokens (.cons (.var .tokens) (.cons (.var .pos) .nil))) <|
      .seq (.if_ (.bin .ne (.var .err2) .nil)
        (.ret (.cons .nil (.cons (.var .err2) .nil)))
        .skip) <|
      .seq (.set .elements (.call .append (.cons (.var .elements) (.cons (.var .expr) .nil)))) <|
      (.set .pos (.var .newPos)))
      (.if_ (.bin .eq (.var .token) (.str (b! ")")))
        (.ret (.cons .nil (.cons (.call .errorf (.cons (.str (b! "unexpected closing parenthesis in shell-like syntax")) .nil)) .nil)))
        (.seq (.callFn [.value, .err3] .parseToken (.cons (.var .token) .nil)) <|
        .seq (.if_ (.bin .ne (.var .err3) .nil)
          (.ret (.cons .nil (.cons (.var .err3) .nil)))
          .skip) <|
        .seq (.set .elements (.call .append (.cons (.var .elements) (.cons (.var .value) .nil)))) <|
        (.set .pos (.bin .add (.var .pos) (.int 1)))))))) <|
  (.ret (.cons (.call .newList (.cons (.var .elements) .nil)) (.cons .nil .nil))))

/-- /repo/edlisp/parser/linebased.go:159-212 `tokenize` -/
def pgTokenize : PgS :=
  (.seq (.set .tokens .noStrs) <|
  .seq (.set .current (.str [])) <|
  .seq (.set .inQuotes (.bool false)) <|
  .seq (.set .escapeNext (.bool false)) <|
  .seq (.range .blank .r (.var .line)
    (.seq (.if_ (.var .escapeNext)
      (.seq (.set .current (.bin .add (.var .current) (.call .runeString (.cons (.var .r) .nil)))) <|
      .seq (.set .escapeNext (.bool false)) <|
      .cont)
      .skip) <|
    (.if_ (.bin .eq (.var .r) (.rune '\\'))
      (.seq (.set .current (.bin .add (.var .current) (.call .runeString (.cons (.var .r) .nil)))) <|
        (.if_ (.var .inQuotes)
          (.set .escapeNext (.bool true))
          .skip))
      (.if_ (.bin .eq (.var .r) (.rune '\"'))
      (.seq (.set .current (.bin .add (.var .current) (.call .runeString (.cons (.var .r) .nil)))) <|
        (.set .inQuotes (.not (.var .inQuotes))))
      (.if_ (.bin .or (.bin .eq (.var .r) (.rune '(')) (.bin .eq (.var .r) (.rune ')')))
      (.if_ (.var .inQuotes)
          (.set .current (.bin .add (.var .current) (.call .runeString (.cons (.var .r) .nil))))
          (.seq (.if_ (.bin .gt (.call .len (.cons (.var .current) .nil)) (.int 0))
            (.seq (.set .tokens (.call .append (.cons (.var .tokens) (.cons (.var .current) .nil)))) <|
            (.set .current (.str [])))
            .skip) <|
          (.set .tokens (.call .append (.cons (.var .tokens) (.cons (.call .runeString (.cons (.var .r) .nil)) .nil))))))
      (.if_ (.bin .or (.bin .or (.bin .or (.bin .eq (.var .r) (.rune ' ')) (.bin .eq (.var .r) (.rune '\t'))) (.bin .eq (.var .r) (.rune '\n'))) (.bin .eq (.var .r) (.rune '\r')))
      (.if_ (.var .inQuotes)
          (.set .current (.bin .add (.var .current) (.call .runeString (.cons (.var .r) .nil))))
          (.if_ (.bin .gt (.call .len (.cons (.var .current) .nil)) (.int 0))
            (.seq (.set .tokens (.call .append (.cons (.var .tokens) (.cons (.var .current) .nil)))) <|
            (.set .current (.str [])))
            .skip))
      (.set .current (.bin .add (.var .current) (.call .runeString (.cons (.var .r) .nil)))))))))) <|
  .seq (.if_ (.var .inQuotes)
    (.ret (.cons .nil (.cons (.call .errorf (.cons (.str (b! "unterminated string literal")) .nil)) .nil)))
    .skip) <|
  .seq (.if_ (.bin .gt (.call .len (.cons (.var .current) .nil)) (.int 0))
    (.set .tokens (.call .append (.cons (.var .tokens) (.cons (.var .current) .nil))))
    .skip) <|
  (.ret (.cons (.var .tokens) (.cons .nil .nil))))

/-- /repo/edlisp/parser/linebased.go:215-232 `parseTokens` -/
def pgParseTokens : PgS :=
  (.seq (.if_ (.bin .ge (.var .start) (.call .len (.cons (.var .tokens) .nil)))
    (.ret (.cons .nil (.cons (.var .start) (.cons (.call .errorf (.cons (.str (b! "unexpected end of input")) .nil)) .nil))))
    .skip) <|
  .seq (.set .token (.call .index (.cons (.var .tokens) (.cons (.var .start) .nil)))) <|
  .seq (.if_ (.bin .eq (.var .token) (.str (b! "(")))
    (.seq (.callFn [.tmp1, .tmp2, .tmp3] .parseList (.cons (.var .tokens) (.cons (.bin .add (.var .start) (.int 1)) .nil))) <|
    (.ret (.cons (.var .tmp1) (.cons (.var .tmp2) (.cons (.var .tmp3) .nil)))))
    .skip) <|
  .seq (.if_ (.bin .eq (.var .token) (.str (b! ")")))
    (.ret (.cons .nil (.cons (.var .start) (.cons (.call .errorf (.cons (.str (b! "unexpected closing parenthesis")) .nil)) .nil))))
    .skip) <|
  .seq (.callFn [.value, .err] .parseToken (.cons (.var .token) .nil)) <|
  (.ret (.cons (.var .value) (.cons (.bin .add (.var .start) (.int 1)) (.cons (.var .err) .nil)))))

/-- /repo/edlisp/parser/linebased.go:235-253 `parseList` -/
def pgParseList : PgS :=
  (.seq (.set .elements .noVals) <|
  .seq (.set .pos (.var .start)) <|
  .seq (.while (.bin .and (.bin .lt (.var .pos) (.call .len (.cons (.var .tokens) .nil))) (.bin .ne (.call .index (.cons (.var .tokens) (.cons (.var .pos) .nil))) (.str (b! ")")))) .skip
    (.seq (.callFn [.element, .newPos, .err] .parseTokens (.cons (.var .tokens) (.cons (.var .pos) .nil))) <|
    .seq (.if_ (.bin .ne (.var .err) .nil)
      (.ret (.cons .nil (.cons (.var .pos) (.cons (.var .err) .nil))))
      .skip) <|
    .seq (.set .elements (.call .append (.cons (.var .elements) (.cons (.var .element) .nil)))) <|
    (.set .pos (.var .newPos)))) <|
  .seq (.if_ (.bin .ge (.var .pos) (.call .len (.cons (.var .tokens) .nil)))
    (.ret (.cons .nil (.cons (.var .pos) (.cons (.call .errorf (.cons (.str (b! "unterminated list")) .nil)) .nil))))
    .skip) <|
  (.ret (.cons (.call .newList (.cons (.var .elements) .nil)) (.cons (.bin .add (.var .pos) (.int 1)) (.cons .nil .nil)))))

/-- /repo/edlisp/parser/linebased.go:256-297 `splitOnSemicolons` -/
def pgSplitOnSemicolons : PgS :=
  (.seq (.set .parts .noStrs) <|
  .seq (.set .current (.str [])) <|
  .seq (.set .inQuotes (.bool false)) <|
  .seq (.set .escapeNext (.bool false)) <|
  .seq (.range .blank .r (.var .line)
    (.seq (.if_ (.var .escapeNext)
      (.seq (.set .current (.bin .add (.var .current) (.call .runeString (.cons (.var .r) .nil)))) <|
      .seq (.set .escapeNext (.bool false)) <|
      .cont)
      .skip) <|
    (.if_ (.bin .eq (.var .r) (.rune '\\'))
      (.seq (.set .current (.bin .add (.var .current) (.call .runeString (.cons (.var .r) .nil)))) <|
        (.if_ (.var .inQuotes)
          (.set .escapeNext (.bool true))
          .skip))
      (.if_ (.bin .eq (.var .r) (.rune '\"'))
      (.seq (.set .current (.bin .add (.var .current) (.call .runeString (.cons (.var .r) .nil)))) <|
        (.set .inQuotes (.not (.var .inQuotes))))
      (.if_ (.bin .eq (.var .r) (.rune ';'))
      (.if_ (.var .inQuotes)
          (.set .current (.bin .add (.var .current) (.call .runeString (.cons (.var .r) .nil))))
          (.seq (.set .parts (.call .append (.cons (.var .parts) (.cons (.var .current) .nil)))) <|
          (.set .current (.str []))))
      (.set .current (.bin .add (.var .current) (.call .runeString (.cons (.var .r) .nil))))))))) <|
  .seq (.if_ (.bin .gt (.call .len (.cons (.var .current) .nil)) (.int 0))
    (.set .parts (.call .append (.cons (.var .parts) (.cons (.var .current) .nil))))
    .skip) <|
  (.ret (.cons (.var .parts) .nil)))

/-- /repo/edlisp/parser/linebased.go:300-320 `parseToken` -/
def pgParseToken : PgS :=
  (.seq (.if_ (.bin .and (.call .hasPrefix (.cons (.var .token) (.cons (.str (b! "\"")) .nil))) (.call .hasSuffix (.cons (.var .token) (.cons (.str (b! "\"")) .nil))))
    (.seq (.if_ (.bin .lt (.call .len (.cons (.var .token) .nil)) (.int 2))
      (.ret (.cons .nil (.cons (.call .errorf (.cons (.str (b! "invalid string literal: ")) (.cons (.var .token) .nil))) .nil)))
      .skip) <|
    .seq (.setMany [.unquoted, .err] (.call .unquote (.cons (.var .token) .nil))) <|
    .seq (.if_ (.bin .ne (.var .err) .nil)
      (.ret (.cons .nil (.cons (.call .errorf (.cons (.str (b! "invalid string literal ")) (.cons (.var .token) (.cons (.str (b! ": ")) (.cons (.var .err) .nil))))) .nil)))
      .skip) <|
    (.ret (.cons (.call .newString (.cons (.var .unquoted) .nil)) (.cons .nil .nil))))
    .skip) <|
  .seq (.setMany [.num, .err2] (.call .parseFloat (.cons (.var .token) .nil))) <|
  .seq (.if_ (.bin .eq (.var .err2) .nil)
    (.ret (.cons (.call .newNumber (.cons (.var .num) .nil)) (.cons .nil .nil)))
    .skip) <|
  (.ret (.cons (.call .newSymbol (.cons (.var .token) .nil)) (.cons .nil .nil))))

/-- /repo/edlisp/parser/json.go:46-68 `ParseJSONString` -/
def pgParseJSONString : PgS :=
  (.seq (.set .rawValues .noJsons) <|
  .seq (.setMany [.rawValues, .err] (.call .unmarshal (.cons (.var .s) .nil))) <|
  .seq (.if_ (.bin .ne (.var .err) .nil)
    (.ret (.cons .nil (.cons (.call .errorf (.cons (.str (b! "JSON unmarshal error: ")) (.cons (.var .err) .nil))) .nil)))
    .skip) <|
  .seq (.set .expressions .noVals) <|
  .seq (.range .i .rawValue (.var .rawValues)
    (.seq (.callFn [.tmp1] .ValidateJSONFormat (.cons (.var .rawValue) .nil)) <|
    .seq (.set .err2 (.var .tmp1)) <|
    .seq (.if_ (.bin .ne (.var .err2) .nil)
      (.ret (.cons .nil (.cons (.call .errorf (.cons (.str (b! "invalid format at index ")) (.cons (.call .decimal (.cons (.var .i) .nil)) (.cons (.str (b! ": ")) (.cons (.var .err2) .nil))))) .nil)))
      .skip) <|
    .seq (.callFn [.expr, .err3] .convertJSONValue (.cons (.var .rawValue) .nil)) <|
    .seq (.if_ (.bin .ne (.var .err3) .nil)
      (.ret (.cons .nil (.cons (.var .err3) .nil)))
      .skip) <|
    (.set .expressions (.call .append (.cons (.var .expressions) (.cons (.var .expr) .nil)))))) <|
  (.ret (.cons (.var .expressions) (.cons .nil .nil))))

/-- /repo/edlisp/parser/json.go:71-86 `convertJSONValue` -/
def pgConvertJSONValue : PgS :=
  (.if_ (.call (.isType .array) (.cons (.var .value) .nil))
    (.seq (.set .v (.call (.as .array) (.cons (.var .value) .nil))) <|
      .seq (.callFn [.tmp1, .tmp2] .convertJSONArray (.cons (.var .v) .nil)) <|
      (.ret (.cons (.var .tmp1) (.cons (.var .tmp2) .nil))))
    (.if_ (.call (.isType .goString) (.cons (.var .value) .nil))
    (.seq (.set .v2 (.call (.as .goString) (.cons (.var .value) .nil))) <|
      (.ret (.cons (.call .newSymbol (.cons (.var .v2) .nil)) (.cons .nil .nil))))
    (.if_ (.call (.isType .float) (.cons (.var .value) .nil))
    (.seq (.set .v3 (.call (.as .float) (.cons (.var .value) .nil))) <|
      (.ret (.cons (.call .newNumber (.cons (.var .v3) .nil)) (.cons .nil .nil))))
    (.if_ (.bin .or (.call (.isType .bool) (.cons (.var .value) .nil)) (.call (.isType .null) (.cons (.var .value) .nil)))
    (.ret (.cons .nil (.cons (.call .errorf (.cons (.str (b! "unsupported JSON type: ")) (.cons (.call .typeName (.cons (.var .value) .nil)) .nil))) .nil)))
    (.ret (.cons .nil (.cons (.call .errorf (.cons (.str (b! "unexpected JSON type: ")) (.cons (.call .typeName (.cons (.var .value) .nil)) .nil))) .nil)))))))

/-- /repo/edlisp/parser/json.go:91-115 `convertJSONArray` -/
def pgConvertJSONArray : PgS :=
  (.seq (.if_ (.bin .eq (.call .len (.cons (.var .arr) .nil)) (.int 0))
    (.ret (.cons (.call .newList (.cons .noVals .nil)) (.cons .nil .nil)))
    .skip) <|
  .seq (.set .elements .noVals) <|
  .seq (.setMany [.firstElement, .ok] (.call (.as2 .goString) (.cons (.call .index (.cons (.var .arr) (.cons (.int 0) .nil))) .nil))) <|
  .seq (.if_ (.not (.var .ok))
    (.ret (.cons .nil (.cons (.call .errorf (.cons (.str (b! "first element of JSON array must be a string (symbol), got ")) (.cons (.call .typeName (.cons (.call .index (.cons (.var .arr) (.cons (.int 0) .nil))) .nil)) .nil))) .nil)))
    .skip) <|
  .seq (.set .elements (.call .append (.cons (.var .elements) (.cons (.call .newSymbol (.cons (.var .firstElement) .nil)) .nil)))) <|
  .seq (.range .i .item (.call .sliceFrom (.cons (.var .arr) (.cons (.int 1) .nil)))
    (.seq (.callFn [.converted, .err] .convertJSONItem (.cons (.var .item) .nil)) <|
    .seq (.if_ (.bin .ne (.var .err) .nil)
      (.ret (.cons .nil (.cons (.call .errorf (.cons (.str (b! "error converting array element ")) (.cons (.call .decimal (.cons (.bin .add (.var .i) (.int 1)) .nil)) (.cons (.str (b! ": ")) (.cons (.var .err) .nil))))) .nil)))
      .skip) <|
    (.set .elements (.call .append (.cons (.var .elements) (.cons (.var .converted) .nil)))))) <|
  (.ret (.cons (.call .newList (.cons (.var .elements) .nil)) (.cons .nil .nil))))

/-- /repo/edlisp/parser/json.go:119-137 `convertJSONItem` -/
def pgConvertJSONItem : PgS :=
  (.if_ (.call (.isType .goString) (.cons (.var .item) .nil))
    (.seq (.set .v (.call (.as .goString) (.cons (.var .item) .nil))) <|
      (.ret (.cons (.call .newString (.cons (.var .v) .nil)) (.cons .nil .nil))))
    (.if_ (.call (.isType .float) (.cons (.var .item) .nil))
    (.seq (.set .v2 (.call (.as .float) (.cons (.var .item) .nil))) <|
      (.ret (.cons (.call .newNumber (.cons (.var .v2) .nil)) (.cons .nil .nil))))
    (.if_ (.call (.isType .array) (.cons (.var .item) .nil))
    (.seq (.set .v3 (.call (.as .array) (.cons (.var .item) .nil))) <|
      .seq (.callFn [.tmp1, .tmp2] .convertJSONArray (.cons (.var .v3) .nil)) <|
      (.ret (.cons (.var .tmp1) (.cons (.var .tmp2) .nil))))
    (.if_ (.call (.isType .bool) (.cons (.var .item) .nil))
    (.ret (.cons .nil (.cons (.call .errorf (.cons (.str (b! "boolean values are not supported in texted JSON")) .nil)) .nil)))
    (.if_ (.call (.isType .null) (.cons (.var .item) .nil))
    (.ret (.cons .nil (.cons (.call .errorf (.cons (.str (b! "null values are not supported in texted JSON")) .nil)) .nil)))
    (.ret (.cons .nil (.cons (.call .errorf (.cons (.str (b! "unsupported JSON type: ")) (.cons (.call .typeName (.cons (.var .item) .nil)) (.cons (.str (b! " (value: ")) (.cons (.call .verb (.cons (.var .item) .nil)) (.cons (.str (b! ")")) .nil)))))) .nil))))))))

/-- /repo/edlisp/parser/json.go:140-142 `ValidateJSONFormat` -/
def pgValidateJSONFormat : PgS :=
  (.seq (.callFn [.tmp1] .validateJSONValue (.cons (.var .value) (.cons (.bool true) .nil))) <|
  (.ret (.cons (.var .tmp1) .nil)))

/-- /repo/edlisp/parser/json.go:145-187 `validateJSONValue` -/
def pgValidateJSONValue : PgS :=
  (.if_ (.call (.isType .array) (.cons (.var .value) .nil))
    (.seq (.set .v (.call (.as .array) (.cons (.var .value) .nil))) <|
      .seq (.if_ (.bin .eq (.call .len (.cons (.var .v) .nil)) (.int 0))
        (.ret (.cons .nil .nil))
        .skip) <|
      .seq (.setMany [.blank, .ok] (.call (.as2 .goString) (.cons (.call .index (.cons (.var .v) (.cons (.int 0) .nil))) .nil))) <|
      .seq (.if_ (.not (.var .ok))
        (.ret (.cons (.call .errorf (.cons (.str (b! "first element of array must be string, got ")) (.cons (.call .typeName (.cons (.call .index (.cons (.var .v) (.cons (.int 0) .nil))) .nil)) .nil))) .nil))
        .skip) <|
      .seq (.range .i .item (.call .sliceFrom (.cons (.var .v) (.cons (.int 1) .nil)))
        (.seq (.callFn [.tmp1] .validateJSONValue (.cons (.var .item) (.cons (.bool false) .nil))) <|
        .seq (.set .err (.var .tmp1)) <|
        (.if_ (.bin .ne (.var .err) .nil)
          (.ret (.cons (.call .errorf (.cons (.str (b! "invalid element at index ")) (.cons (.call .decimal (.cons (.bin .add (.var .i) (.int 1)) .nil)) (.cons (.str (b! ": ")) (.cons (.var .err) .nil))))) .nil))
          .skip))) <|
      (.ret (.cons .nil .nil)))
    (.if_ (.call (.isType .goString) (.cons (.var .value) .nil))
    (.seq (.if_ (.var .isTopLevel)
        (.ret (.cons (.call .errorf (.cons (.str (b! "top-level strings are not allowed in texted JSON")) .nil)) .nil))
        .skip) <|
      (.ret (.cons .nil .nil)))
    (.if_ (.call (.isType .float) (.cons (.var .value) .nil))
    (.seq (.if_ (.var .isTopLevel)
        (.ret (.cons (.call .errorf (.cons (.str (b! "top-level numbers are not allowed in texted JSON")) .nil)) .nil))
        .skip) <|
      (.ret (.cons .nil .nil)))
    (.if_ (.bin .or (.call (.isType .bool) (.cons (.var .value) .nil)) (.call (.isType .null) (.cons (.var .value) .nil)))
    (.ret (.cons (.call .errorf (.cons (.str (b! "boolean and null values are not supported in texted JSON")) .nil)) .nil))
    (.seq (.set .rv (.call .reflectValueOf (.cons (.var .value) .nil))) <|
      .seq (.if_ (.call .isMap (.cons (.var .rv) .nil))
        (.ret (.cons (.call .errorf (.cons (.str (b! "objects are not supported in texted JSON")) .nil)) .nil))
        .skip) <|
      (.ret (.cons (.call .errorf (.cons (.str (b! "unsupported type: ")) (.cons (.call .typeName (.cons (.var .value) .nil)) .nil))) .nil)))))))

/-- /repo/edlisp/eval.go:89-91 `Eval` -/
def pgEval : PgS :=
  (.seq (.callFn [.tmp1, .tmp2] .EvalWithTrace (.cons (.var .program) (.cons (.var .env) (.cons (.var .buffer) (.cons .nil .nil))))) <|
  (.ret (.cons (.var .tmp1) (.cons (.var .tmp2) .nil))))

/-- /repo/edlisp/eval.go:94-114 `EvalWithTrace` -/
def pgEvalWithTrace : PgS :=
  (.seq (.set .result (.call .newString (.cons (.str (b! "")) .nil))) <|
  .seq (.range .i .expr (.var .program)
    (.seq (.callFn [.val, .err] .evalExpression (.cons (.var .expr) (.cons (.var .env) (.cons (.var .buffer) .nil)))) <|
    .seq (.if_ (.bin .ne (.var .err) .nil)
      (.seq (.callFn [.tmp1] .NewExecutionError (.cons (.var .err) (.cons (.var .program) (.cons (.var .i) (.cons (.var .expr) (.cons (.var .buffer) (.cons (.var .env) .nil))))))) <|
      (.ret (.cons .nil (.cons (.var .tmp1) .nil))))
      .skip) <|
    .seq (.set .result (.var .val)) <|
    (.if_ (.bin .ne (.var .traceCallback) .nil)
      (.trace (.var .traceCallback) (.var .expr))
      .skip))) <|
  (.ret (.cons (.var .result) (.cons .nil .nil))))

/-- /repo/edlisp/eval.go:117-159 `evalExpression` -/
def pgEvalExpression : PgS :=
  (.if_ (.call (.isA .string) (.cons (.var .expr) .nil))
    (.ret (.cons (.var .expr) (.cons .nil .nil)))
    (.if_ (.call (.isA .number) (.cons (.var .expr) .nil))
    (.ret (.cons (.var .expr) (.cons .nil .nil)))
    (.if_ (.call (.isA .list) (.cons (.var .expr) .nil))
    (.seq (.set .list (.call (.as .list) (.cons (.var .expr) .nil))) <|
      .seq (.if_ (.bin .eq (.call .listLen (.cons (.var .list) .nil)) (.int 0))
        (.ret (.cons .nil (.cons (.call .errorf (.cons (.str (b! "empty list")) .nil)) .nil)))
        .skip) <|
      .seq (.set .firstElem (.call .listGet (.cons (.var .list) (.cons (.int 0) .nil)))) <|
      .seq (.if_ (.not (.call (.isA .symbol) (.cons (.var .firstElem) .nil)))
        (.ret (.cons .nil (.cons (.call .errorf (.cons (.str (b! "first element of list must be a symbol")) .nil)) .nil)))
        .skip) <|
      .seq (.set .symbol (.call (.as .symbol) (.cons (.var .firstElem) .nil))) <|
      .seq (.set .fnName (.call .name (.cons (.var .symbol) .nil))) <|
      .seq (.setMany [.fn, .exists] (.call .lookup (.cons (.var .env) (.cons (.var .fnName) .nil)))) <|
      .seq (.if_ (.not (.var .exists))
        (.ret (.cons .nil (.cons (.call .errorf (.cons (.str (b! "undefined-function ")) (.cons (.call .quote (.cons (.var .fnName) .nil)) .nil))) .nil)))
        .skip) <|
      .seq (.set .args (.call .make (.cons (.bin .sub (.call .listLen (.cons (.var .list) .nil)) (.int 1)) .nil))) <|
      .seq (.set .i (.int 1)) <|
      .seq (.while (.bin .lt (.var .i) (.call .listLen (.cons (.var .list) .nil))) (.set .i (.bin .add (.var .i) (.int 1)))
        (.seq (.callFn [.evaluatedArg, .err] .evalExpression (.cons (.call .listGet (.cons (.var .list) (.cons (.var .i) .nil))) (.cons (.var .env) (.cons (.var .buffer) .nil)))) <|
        .seq (.if_ (.bin .ne (.var .err) .nil)
          (.ret (.cons .nil (.cons (.var .err) .nil)))
          .skip) <|
        (.setAt .args (.bin .sub (.var .i) (.int 1)) (.var .evaluatedArg)))) <|
      .seq (.callValue [.result, .err2] (.var .fn) (.var .args)) <|
      .seq (.if_ (.bin .ne (.var .err2) .nil)
        (.ret (.cons .nil (.cons (.var .err2) .nil)))
        .skip) <|
      (.ret (.cons (.var .result) (.cons .nil .nil))))
    (.ret (.cons .nil (.cons (.call .errorf (.cons (.str (b! "unknown expression type")) .nil)) .nil))))))

/-- /repo/edlisp/error.go:78-92 `NewExecutionError` -/
def pgNewExecutionError : PgS :=
  (.ret (.cons (.call .executionError (.cons (.var .originalError) (.cons (.var .program) (.cons (.var .currentInstruction) (.cons (.var .instructionIndex) (.cons (.buf .content) (.cons (.buf .point) (.cons (.buf .mark) (.cons (.buf .lastMatch) (.cons (.buf .lastStart) (.cons (.buf .lastEnd) .nil))))))))))) .nil))

/-- /repo/edlisp/error.go:45-70 `ExecutionError.Error` -/
def pgErrorMessage : PgS :=
  (.seq (.set .b (.str [])) <|
  .seq (.set .b (.bin .add (.var .b) (.call .errorText (.cons (.call (.failure .error) (.cons (.var .e) .nil)) .nil)))) <|
  .seq (.set .b (.bin .add (.var .b) (.str (b! " (at instruction ")))) <|
  .seq (.set .b (.bin .add (.var .b) (.call .decimal (.cons (.call (.failure .index) (.cons (.var .e) .nil)) .nil)))) <|
  .seq (.set .b (.bin .add (.var .b) (.str (b! ": ")))) <|
  .seq (.if_ (.bin .ne (.call (.failure .instruction) (.cons (.var .e) .nil)) .nil)
    (.seq (.callFn [.shown] .verb (.cons (.call (.failure .instruction) (.cons (.var .e) .nil)) .nil)) <|
    (.set .b (.bin .add (.var .b) (.var .shown))))
    (.set .b (.bin .add (.var .b) (.str (b! "(nil instruction)"))))) <|
  .seq (.set .b (.bin .add (.var .b) (.str (b! ", point=")))) <|
  .seq (.set .b (.bin .add (.var .b) (.call .decimal (.cons (.call (.failure .point) (.cons (.var .e) .nil)) .nil)))) <|
  .seq (.set .b (.bin .add (.var .b) (.str (b! ", mark=")))) <|
  .seq (.set .b (.bin .add (.var .b) (.call .decimal (.cons (.call (.failure .mark) (.cons (.var .e) .nil)) .nil)))) <|
  .seq (.set .b (.bin .add (.var .b) (.str (b! ")")))) <|
  (.ret (.cons (.var .b) .nil)))

/-- /repo/edlisp/equal.go:5-57 `Equal` -/
def pgEqual : PgS :=
  (.seq (.if_ (.bin .and (.bin .eq (.var .a) .nil) (.bin .eq (.var .b) .nil))
    (.ret (.cons (.bool true) .nil))
    .skip) <|
  .seq (.if_ (.bin .or (.bin .eq (.var .a) .nil) (.bin .eq (.var .b) .nil))
    (.ret (.cons (.bool false) .nil))
    .skip) <|
  .seq (.if_ (.bin .ne (.call .kindName (.cons (.var .a) .nil)) (.call .kindName (.cons (.var .b) .nil)))
    (.ret (.cons (.bool false) .nil))
    .skip) <|
  (.if_ (.call (.isA .string) (.cons (.var .a) .nil))
    (.seq (.set .aStr (.call (.as .string) (.cons (.var .a) .nil))) <|
      .seq (.set .bStr (.call (.as .string) (.cons (.var .b) .nil))) <|
      (.ret (.cons (.bin .eq (.call .value (.cons (.var .aStr) .nil)) (.call .value (.cons (.var .bStr) .nil))) .nil)))
    (.if_ (.call (.isA .number) (.cons (.var .a) .nil))
    (.seq (.set .aNum (.call (.as .number) (.cons (.var .a) .nil))) <|
      .seq (.set .bNum (.call (.as .number) (.cons (.var .b) .nil))) <|
      (.ret (.cons (.bin .eq (.call .value (.cons (.var .aNum) .nil)) (.call .value (.cons (.var .bNum) .nil))) .nil)))
    (.if_ (.call (.isA .symbol) (.cons (.var .a) .nil))
    (.seq (.set .aSym (.call (.as .symbol) (.cons (.var .a) .nil))) <|
      .seq (.set .bSym (.call (.as .symbol) (.cons (.var .b) .nil))) <|
      (.ret (.cons (.bin .eq (.call .name (.cons (.var .aSym) .nil)) (.call .name (.cons (.var .bSym) .nil))) .nil)))
    (.if_ (.call (.isA .list) (.cons (.var .a) .nil))
    (.seq (.set .aList (.call (.as .list) (.cons (.var .a) .nil))) <|
      .seq (.set .bList (.call (.as .list) (.cons (.var .b) .nil))) <|
      .seq (.if_ (.bin .ne (.call .listLen (.cons (.var .aList) .nil)) (.call .listLen (.cons (.var .bList) .nil)))
        (.ret (.cons (.bool false) .nil))
        .skip) <|
      .seq (.set .i (.int 0)) <|
      .seq (.while (.bin .lt (.var .i) (.call .listLen (.cons (.var .aList) .nil))) (.set .i (.bin .add (.var .i) (.int 1)))
        (.seq (.callFn [.tmp1] .Equal (.cons (.call .listGet (.cons (.var .aList) (.cons (.var .i) .nil))) (.cons (.call .listGet (.cons (.var .bList) (.cons (.var .i) .nil))) .nil))) <|
        (.if_ (.not (.var .tmp1))
          (.ret (.cons (.bool false) .nil))
          .skip))) <|
      (.ret (.cons (.bool true) .nil)))
    (.ret (.cons (.bin .eq (.var .a) (.var .b)) .nil)))))))

/-- /repo/edlisp/list.go:40-50 `List.String` -/
def pgListString : PgS :=
  (.seq (.if_ (.bin .eq (.call .len (.cons (.call .elements (.cons (.var .list) .nil)) .nil)) (.int 0))
    (.ret (.cons (.str (b! "()")) .nil))
    .skip) <|
  .seq (.set .parts .noStrs) <|
  .seq (.range .blank .element (.call .elements (.cons (.var .list) .nil))
    (.seq (.callFn [.shown] .verb (.cons (.var .element) .nil)) <|
    (.set .parts (.call .append (.cons (.var .parts) (.cons (.var .shown) .nil)))))) <|
  (.ret (.cons (.bin .add (.bin .add (.str (b! "(")) (.call .join (.cons (.var .parts) (.cons (.str (b! " ")) .nil)))) (.str (b! ")"))) .nil)))

/-- /repo/edlisp/list.go:53-55 `List.Len` -/
def pgListLen : PgS :=
  (.ret (.cons (.call .len (.cons (.call .elements (.cons (.var .list) .nil)) .nil)) .nil))

/-- /repo/edlisp/list.go:58-60 `List.IsEmpty` -/
def pgListIsEmpty : PgS :=
  (.ret (.cons (.bin .eq (.call .len (.cons (.call .elements (.cons (.var .list) .nil)) .nil)) (.int 0)) .nil))

/-- /repo/edlisp/list.go:87-92 `List.Get` -/
def pgListGet : PgS :=
  (.seq (.if_ (.bin .or (.bin .lt (.var .index) (.int 0)) (.bin .ge (.var .index) (.call .len (.cons (.call .elements (.cons (.var .list) .nil)) .nil))))
    (.ret (.cons .nil .nil))
    .skip) <|
  (.ret (.cons (.call .index (.cons (.call .elements (.cons (.var .list) .nil)) (.cons (.var .index) .nil))) .nil)))

/-- /repo/edlisp/number.go:37-42 `Number.String` -/
def pgNumberString : PgS :=
  (.seq (.if_ (.bin .eq (.call .value (.cons (.var .num) .nil)) (.call .float64 (.cons (.call .int (.cons (.call .value (.cons (.var .num) .nil)) .nil)) .nil)))
    (.ret (.cons (.call .fmtF0 (.cons (.call .value (.cons (.var .num) .nil)) .nil)) .nil))
    .skip) <|
  (.ret (.cons (.call .fmtG (.cons (.call .value (.cons (.var .num) .nil)) .nil)) .nil)))

/-- /repo/edlisp/symbol.go:30-32 `Symbol.String` -/
def pgSymbolString : PgS :=
  (.ret (.cons (.call .name (.cons (.var .sym) .nil)) .nil))

/-- /repo/edlisp/string.go:32-34 `String.String` -/
def pgStringString : PgS :=
  (.ret (.cons (.call .quote (.cons (.call .value (.cons (.var .str) .nil)) .nil)) .nil))

/-- /repo/edlisp/writer/json.go:40-61 `JSONWriter.valueToJSON` -/
def pgValueToJSON : PgS :=
  (.if_ (.call (.isType .list) (.cons (.var .value) .nil))
    (.seq (.set .v (.call (.as .list) (.cons (.var .value) .nil))) <|
      .seq (.set .jsonArray .noJsons) <|
      .seq (.range .blank .element (.call .elements (.cons (.var .v) .nil))
        (.seq (.callFn [.jsonValue, .err] .valueToJSON (.cons (.var .w) (.cons (.var .element) .nil))) <|
        .seq (.if_ (.bin .ne (.var .err) .nil)
          (.ret (.cons .nil (.cons (.var .err) .nil)))
          .skip) <|
        (.set .jsonArray (.call .append (.cons (.var .jsonArray) (.cons (.var .jsonValue) .nil)))))) <|
      (.ret (.cons (.call .iface (.cons (.var .jsonArray) .nil)) (.cons .nil .nil))))
    (.if_ (.call (.isType .symbol) (.cons (.var .value) .nil))
    (.seq (.set .v2 (.call (.as .symbol) (.cons (.var .value) .nil))) <|
      (.ret (.cons (.call .iface (.cons (.call .name (.cons (.var .v2) .nil)) .nil)) (.cons .nil .nil))))
    (.if_ (.call (.isType .string) (.cons (.var .value) .nil))
    (.seq (.set .v3 (.call (.as .string) (.cons (.var .value) .nil))) <|
      (.ret (.cons (.call .iface (.cons (.call .value (.cons (.var .v3) .nil)) .nil)) (.cons .nil .nil))))
    (.if_ (.call (.isType .number) (.cons (.var .value) .nil))
    (.seq (.set .v4 (.call (.as .number) (.cons (.var .value) .nil))) <|
      (.ret (.cons (.call .iface (.cons (.call .value (.cons (.var .v4) .nil)) .nil)) (.cons .nil .nil))))
    (.ret (.cons .nil (.cons (.call .errorf (.cons (.str (b! "unsupported value type for JSON: ")) (.cons (.call .typeName (.cons (.var .value) .nil)) .nil))) .nil)))))))

/-- /repo/edlisp/writer/shell.go:39-59 `ShellWriter.valueToShellString` -/
def pgValueToShellString : PgS :=
  (.seq (.setMany [.list, .ok] (.call (.as2 .list) (.cons (.var .value) .nil))) <|
  .seq (.if_ (.not (.var .ok))
    (.ret (.cons (.str (b! "")) (.cons (.call .errorf (.cons (.str (b! "can only convert lists to shell format, got ")) (.cons (.call .typeName (.cons (.var .value) .nil)) .nil))) .nil)))
    .skip) <|
  .seq (.if_ (.bin .eq (.call .listLen (.cons (.var .list) .nil)) (.int 0))
    (.ret (.cons (.str (b! "")) (.cons .nil .nil)))
    .skip) <|
  .seq (.set .parts .noStrs) <|
  .seq (.range .blank .element (.call .elements (.cons (.var .list) .nil))
    (.seq (.callFn [.part, .err] .valueToToken (.cons (.var .w) (.cons (.var .element) .nil))) <|
    .seq (.if_ (.bin .ne (.var .err) .nil)
      (.ret (.cons (.str (b! "")) (.cons (.var .err) .nil)))
      .skip) <|
    (.set .parts (.call .append (.cons (.var .parts) (.cons (.var .part) .nil)))))) <|
  (.ret (.cons (.call .join (.cons (.var .parts) (.cons (.str (b! " ")) .nil))) (.cons .nil .nil))))

/-- /repo/edlisp/writer/shell.go:62-75 `ShellWriter.valueToToken` -/
def pgValueToToken : PgS :=
  (.if_ (.call (.isType .symbol) (.cons (.var .value) .nil))
    (.seq (.set .v (.call (.as .symbol) (.cons (.var .value) .nil))) <|
      (.ret (.cons (.call .name (.cons (.var .v) .nil)) (.cons .nil .nil))))
    (.if_ (.call (.isType .string) (.cons (.var .value) .nil))
    (.seq (.set .v2 (.call (.as .string) (.cons (.var .value) .nil))) <|
      (.ret (.cons (.call .quote (.cons (.call .value (.cons (.var .v2) .nil)) .nil)) (.cons .nil .nil))))
    (.if_ (.call (.isType .number) (.cons (.var .value) .nil))
    (.seq (.set .v3 (.call (.as .number) (.cons (.var .value) .nil))) <|
      .seq (.callFn [.shown] .verb (.cons (.var .v3) .nil)) <|
      (.ret (.cons (.var .shown) (.cons .nil .nil))))
    (.if_ (.call (.isType .list) (.cons (.var .value) .nil))
    (.ret (.cons (.str (b! "")) (.cons (.call .errorf (.cons (.str (b! "nested lists are not supported in shell format")) .nil)) .nil)))
    (.ret (.cons (.str (b! "")) (.cons (.call .errorf (.cons (.str (b! "unsupported value type for shell format: ")) (.cons (.call .typeName (.cons (.var .value) .nil)) .nil))) .nil)))))))

/-- package fmt: `Sprintf("%v", v)` of a value that has a method `String` is what the method returns. (Not a function of /repo.) -/
def pgVerb : PgS :=
  (.if_ (.call (.isA .list) (.cons (.var .v) .nil)) (.seq (.callFn [.shown] .listString (.cons (.var .v) .nil)) (.ret (.cons (.var .shown) .nil)))
  (.if_ (.call (.isA .number) (.cons (.var .v) .nil)) (.seq (.callFn [.shown] .numberString (.cons (.var .v) .nil)) (.ret (.cons (.var .shown) .nil)))
  (.if_ (.call (.isA .symbol) (.cons (.var .v) .nil)) (.seq (.callFn [.shown] .symbolString (.cons (.var .v) .nil)) (.ret (.cons (.var .shown) .nil)))
  (.seq (.callFn [.shown] .stringString (.cons (.var .v) .nil)) (.ret (.cons (.var .shown) .nil))))))

/-- The parameters of the functions. -/
def PgFn.params : PgFn → List PgVar
  | .ParseReader => [.r]
  | .ParseString => [.s]
  | .ParseSexp => [.s]
  | .ParseFormat => [.format, .input]
  | .parseLine => [.line]
  | .parseSExpression => [.line]
  | .parseShellLike => [.line]
  | .tokenize => [.line]
  | .parseTokens => [.tokens, .start]
  | .parseList => [.tokens, .start]
  | .splitOnSemicolons => [.line]
  | .parseToken => [.token]
  | .ParseJSONString => [.s]
  | .convertJSONValue => [.value]
  | .convertJSONArray => [.arr]
  | .convertJSONItem => [.item]
  | .ValidateJSONFormat => [.value]
  | .validateJSONValue => [.value, .isTopLevel]
  | .Eval => [.program, .env, .buffer]
  | .EvalWithTrace => [.program, .env, .buffer, .traceCallback]
  | .evalExpression => [.expr, .env, .buffer]
  | .NewExecutionError => [.originalError, .program, .instructionIndex, .currentInstruction, .buffer, .env]
  | .errorMessage => [.e]
  | .Equal => [.a, .b]
  | .listString => [.list]
  | .listLen => [.list]
  | .listIsEmpty => [.list]
  | .listGet => [.list, .index]
  | .numberString => [.num]
  | .symbolString => [.sym]
  | .stringString => [.str]
  | .valueToJSON => [.w, .value]
  | .valueToShellString => [.w, .value]
  | .valueToToken => [.w, .value]
  | .verb => [.v]

/-- The bodies of the functions. -/
def PgFn.body : PgFn → PgS
  | .ParseReader => pgParseReader
  | .ParseString => pgParseString
  | .ParseSexp => pgParseSexp
  | .ParseFormat => pgParseFormat
  | .parseLine => pgParseLine
  | .parseSExpression => pgParseSExpression
  | .parseShellLike => pgParseShellLike
  | .tokenize => pgTokenize
  | .parseTokens => pgParseTokens
  | .parseList => pgParseList
  | .splitOnSemicolons => pgSplitOnSemicolons
  | .parseToken => pgParseToken
  | .ParseJSONString => pgParseJSONString
  | .convertJSONValue => pgConvertJSONValue
  | .convertJSONArray => pgConvertJSONArray
  | .convertJSONItem => pgConvertJSONItem
  | .ValidateJSONFormat => pgValidateJSONFormat
  | .validateJSONValue => pgValidateJSONValue
  | .Eval => pgEval
  | .EvalWithTrace => pgEvalWithTrace
  | .evalExpression => pgEvalExpression
  | .NewExecutionError => pgNewExecutionError
  | .errorMessage => pgErrorMessage
  | .Equal => pgEqual
  | .listString => pgListString
  | .listLen => pgListLen
  | .listIsEmpty => pgListIsEmpty
  | .listGet => pgListGet
  | .numberString => pgNumberString
  | .symbolString => pgSymbolString
  | .stringString => pgStringString
  | .valueToJSON => pgValueToJSON
  | .valueToShellString => pgValueToShellString
  | .valueToToken => pgValueToToken
  | .verb => pgVerb

end Texted
