import Verif.Model.Go
/- GENERATED by tools/go2lean.py from /repo/edlisp: the built-in functions as they are written in Go. Do not edit. -/
namespace Texted

/-- /repo/edlisp/builtin_insert.go:9-21 `BuiltinInsert` -/
def goInsert : GoS :=
  (.seq (.if_ (.bin .ne (.len (.var .args)) (.int 1))
    (.ret .nil (.errorf1 (b! "insert expects 1 argument, got ") (.len (.var .args))))
    .skip) <|
  .seq (.if_ (.not (.call1 .isString (.index (.var .args) (.int 0))))
    (.ret .nil (.errorf (b! "insert expects a string argument")))
    .skip) <|
  .seq (.set .str (.assert .isString (.index (.var .args) (.int 0)))) <|
  .seq (.insert (.value (.var .str))) <|
  (.ret (.call1 .newString (.str (b! ""))) .nil))

/-- /repo/edlisp/builtin_goto_char.go:12-33 `BuiltinGotoChar` -/
def goGotoChar : GoS :=
  (.seq (.if_ (.bin .ne (.len (.var .args)) (.int 1))
    (.ret .nil (.errorf1 (b! "goto-char expects 1 argument, got ") (.len (.var .args))))
    .skip) <|
  .seq (.if_ (.not (.call1 .isNumber (.index (.var .args) (.int 0))))
    (.ret .nil (.errorf (b! "goto-char expects a number argument")))
    .skip) <|
  .seq (.set .num (.assert .isNumber (.index (.var .args) (.int 0)))) <|
  .seq (.set .pos (.call1 .int (.value (.var .num)))) <|
  .seq (.set .content (.buf .content)) <|
  .seq (.if_ (.bin .lt (.var .pos) (.int 1))
    (.set .pos (.int 1))
    (.if_ (.bin .gt (.var .pos) (.bin .add (.len (.var .content)) (.int 1)))
      (.set .pos (.bin .add (.len (.var .content)) (.int 1)))
      .skip)) <|
  .seq (.setBuf .point (.var .pos)) <|
  (.ret (.call1 .newString (.str (b! ""))) .nil))

/-- /repo/edlisp/builtin_goto_line.go:12-41 `BuiltinGotoLine` -/
def goGotoLine : GoS :=
  (.seq (.if_ (.bin .ne (.len (.var .args)) (.int 1))
    (.ret .nil (.errorf1 (b! "goto-line expects 1 argument, got ") (.len (.var .args))))
    .skip) <|
  .seq (.if_ (.not (.call1 .isNumber (.index (.var .args) (.int 0))))
    (.ret .nil (.errorf (b! "goto-line expects a number argument")))
    .skip) <|
  .seq (.set .num (.assert .isNumber (.index (.var .args) (.int 0)))) <|
  .seq (.set .lineNum (.call1 .int (.value (.var .num)))) <|
  .seq (.set .content (.buf .content)) <|
  .seq (.set .lines (.call2 .stringsSplit (.var .content) (.str (b! "\n")))) <|
  .seq (.if_ (.bin .lt (.var .lineNum) (.int 1))
    (.set .lineNum (.int 1))
    (.if_ (.bin .gt (.var .lineNum) (.len (.var .lines)))
      (.set .lineNum (.len (.var .lines)))
      .skip)) <|
  .seq (.set .pos (.int 1)) <|
  .seq (.set .i (.int 0)) <|
  .seq (.while (.bin .lt (.var .i) (.bin .sub (.var .lineNum) (.int 1))) (.set .i (.bin .add (.var .i) (.int 1)))
    (.set .pos (.bin .add (.var .pos) (.bin .add (.len (.index (.var .lines) (.var .i))) (.int 1))))) <|
  .seq (.setBuf .point (.var .pos)) <|
  (.ret (.call1 .newString (.str (b! ""))) .nil))

/-- /repo/edlisp/builtin_search_forward.go:12-46 `BuiltinSearchForward` -/
def goSearchForward : GoS :=
  (.seq (.if_ (.bin .ne (.len (.var .args)) (.int 1))
    (.ret .nil (.errorf1 (b! "search-forward expects 1 argument, got ") (.len (.var .args))))
    .skip) <|
  .seq (.if_ (.not (.call1 .isString (.index (.var .args) (.int 0))))
    (.ret .nil (.errorf (b! "search-forward expects a string argument")))
    .skip) <|
  .seq (.set .str (.assert .isString (.index (.var .args) (.int 0)))) <|
  .seq (.set .content (.buf .content)) <|
  .seq (.set .startPos (.bin .sub (.buf .point) (.int 1))) <|
  .seq (.if_ (.bin .lt (.var .startPos) (.int 0))
    (.set .startPos (.int 0))
    .skip) <|
  .seq (.if_ (.bin .ge (.var .startPos) (.len (.var .content)))
    (.ret .nil (.errorf (b! "search failed")))
    .skip) <|
  .seq (.set .index (.call2 .stringsIndex (.sliceFrom (.var .content) (.var .startPos)) (.value (.var .str)))) <|
  .seq (.if_ (.bin .eq (.var .index) (.int (-1)))
    (.ret .nil (.errorf (b! "search failed")))
    .skip) <|
  .seq (.set .matchStart (.bin .add (.bin .add (.var .startPos) (.var .index)) (.int 1))) <|
  .seq (.set .matchEnd (.bin .add (.var .matchStart) (.len (.value (.var .str))))) <|
  .seq (.setBuf .point (.var .matchEnd)) <|
  .seq (.setBuf .lastMatch (.value (.var .str))) <|
  .seq (.setBuf .lastStart (.var .matchStart)) <|
  .seq (.setBuf .lastEnd (.var .matchEnd)) <|
  (.ret (.call1 .newString (.str (b! ""))) .nil))

/-- /repo/edlisp/builtin_search_backward.go:12-47 `BuiltinSearchBackward` -/
def goSearchBackward : GoS :=
  (.seq (.if_ (.bin .ne (.len (.var .args)) (.int 1))
    (.ret .nil (.errorf1 (b! "search-backward expects 1 argument, got ") (.len (.var .args))))
    .skip) <|
  .seq (.if_ (.not (.call1 .isString (.index (.var .args) (.int 0))))
    (.ret .nil (.errorf (b! "search-backward expects a string argument")))
    .skip) <|
  .seq (.set .str (.assert .isString (.index (.var .args) (.int 0)))) <|
  .seq (.set .content (.buf .content)) <|
  .seq (.set .endPos (.bin .sub (.buf .point) (.int 1))) <|
  .seq (.if_ (.bin .gt (.var .endPos) (.len (.var .content)))
    (.set .endPos (.len (.var .content)))
    .skip) <|
  .seq (.if_ (.bin .lt (.var .endPos) (.int 0))
    (.ret .nil (.errorf (b! "search failed")))
    .skip) <|
  .seq (.set .searchArea (.sliceTo (.var .content) (.var .endPos))) <|
  .seq (.set .index (.call2 .stringsLastIndex (.var .searchArea) (.value (.var .str)))) <|
  .seq (.if_ (.bin .eq (.var .index) (.int (-1)))
    (.ret .nil (.errorf (b! "search failed")))
    .skip) <|
  .seq (.set .matchStart (.bin .add (.var .index) (.int 1))) <|
  .seq (.set .matchEnd (.bin .add (.var .matchStart) (.len (.value (.var .str))))) <|
  .seq (.setBuf .point (.var .matchEnd)) <|
  .seq (.setBuf .lastMatch (.value (.var .str))) <|
  .seq (.setBuf .lastStart (.var .matchStart)) <|
  .seq (.setBuf .lastEnd (.var .matchEnd)) <|
  (.ret (.call1 .newString (.str (b! ""))) .nil))

/-- /repo/edlisp/builtin_re_search_forward.go:13-52 `BuiltinReSearchForward` -/
def goReSearchForward : GoS :=
  (.seq (.if_ (.bin .ne (.len (.var .args)) (.int 1))
    (.ret .nil (.errorf1 (b! "re-search-forward expects 1 argument, got ") (.len (.var .args))))
    .skip) <|
  .seq (.if_ (.not (.call1 .isString (.index (.var .args) (.int 0))))
    (.ret .nil (.errorf (b! "re-search-forward expects a string argument")))
    .skip) <|
  .seq (.set .str (.assert .isString (.index (.var .args) (.int 0)))) <|
  .seq (.set .content (.buf .content)) <|
  .seq (.set .startPos (.bin .sub (.buf .point) (.int 1))) <|
  .seq (.if_ (.bin .lt (.var .startPos) (.int 0))
    (.set .startPos (.int 0))
    .skip) <|
  .seq (.if_ (.bin .ge (.var .startPos) (.len (.var .content)))
    (.ret .nil (.errorf (b! "search failed")))
    .skip) <|
  .seq (.setPair .re .err (.call1 .regexpCompile (.value (.var .str)))) <|
  .seq (.if_ (.bin .ne (.var .err) .nil)
    (.ret .nil (.errorf1 (b! "invalid regexp: ") (.var .err)))
    .skip) <|
  .seq (.set .«match» (.call2 .findStringIndex (.var .re) (.sliceFrom (.var .content) (.var .startPos)))) <|
  .seq (.if_ (.bin .eq (.var .«match») .nil)
    (.ret .nil (.errorf (b! "search failed")))
    .skip) <|
  .seq (.set .matchStart (.bin .add (.bin .add (.var .startPos) (.index (.var .«match») (.int 0))) (.int 1))) <|
  .seq (.set .matchEnd (.bin .add (.bin .add (.var .startPos) (.index (.var .«match») (.int 1))) (.int 1))) <|
  .seq (.setBuf .point (.var .matchEnd)) <|
  .seq (.setBuf .lastMatch (.slice (.var .content) (.bin .add (.var .startPos) (.index (.var .«match») (.int 0))) (.bin .add (.var .startPos) (.index (.var .«match») (.int 1))))) <|
  .seq (.setBuf .lastStart (.var .matchStart)) <|
  .seq (.setBuf .lastEnd (.var .matchEnd)) <|
  (.ret (.call1 .newString (.str (b! ""))) .nil))

/-- /repo/edlisp/builtin_end_of_buffer.go:9-17 `BuiltinEndOfBuffer` -/
def goEndOfBuffer : GoS :=
  (.seq (.if_ (.bin .ne (.len (.var .args)) (.int 0))
    (.ret .nil (.errorf1 (b! "end-of-buffer expects 0 arguments, got ") (.len (.var .args))))
    .skip) <|
  .seq (.set .content (.buf .content)) <|
  .seq (.setBuf .point (.bin .add (.len (.var .content)) (.int 1))) <|
  (.ret (.call1 .newString (.str (b! ""))) .nil))

/-- /repo/edlisp/builtin_set_mark.go:11-18 `BuiltinSetMark` -/
def goSetMark : GoS :=
  (.seq (.if_ (.bin .ne (.len (.var .args)) (.int 0))
    (.ret .nil (.errorf1 (b! "set-mark expects 0 arguments, got ") (.len (.var .args))))
    .skip) <|
  .seq (.setBuf .mark (.buf .point)) <|
  (.ret (.call1 .newString (.str (b! ""))) .nil))

/-- /repo/edlisp/builtin_mark.go:38-44 `BuiltinMark` -/
def goMark : GoS :=
  (.seq (.if_ (.bin .ne (.len (.var .args)) (.int 0))
    (.ret .nil (.errorf1 (b! "mark expects 0 arguments, got ") (.len (.var .args))))
    .skip) <|
  (.ret (.call1 .newNumber (.call1 .float64 (.buf .mark))) .nil))

/-- /repo/edlisp/builtin_point.go:36-42 `BuiltinPoint` -/
def goPoint : GoS :=
  (.seq (.if_ (.bin .ne (.len (.var .args)) (.int 0))
    (.ret .nil (.errorf1 (b! "point expects 0 arguments, got ") (.len (.var .args))))
    .skip) <|
  (.ret (.call1 .newNumber (.call1 .float64 (.buf .point))) .nil))

/-- /repo/edlisp/builtin_line_number_at_pos.go:43-66 `BuiltinLineNumberAtPos` -/
def goLineNumberAtPos : GoS :=
  (.seq (.if_ (.bin .ne (.len (.var .args)) (.int 0))
    (.ret .nil (.errorf1 (b! "line-number-at-pos expects 0 arguments, got ") (.len (.var .args))))
    .skip) <|
  .seq (.set .content (.buf .content)) <|
  .seq (.set .pos (.bin .sub (.buf .point) (.int 1))) <|
  .seq (.if_ (.bin .lt (.var .pos) (.int 0))
    (.set .pos (.int 0))
    .skip) <|
  .seq (.if_ (.bin .gt (.var .pos) (.len (.var .content)))
    (.set .pos (.len (.var .content)))
    .skip) <|
  .seq (.set .lineNum (.int 1)) <|
  .seq (.set .i (.int 0)) <|
  .seq (.while (.bin .lt (.var .i) (.var .pos)) (.set .i (.bin .add (.var .i) (.int 1)))
    (.if_ (.bin .eq (.index (.var .content) (.var .i)) (.char 10))
      (.set .lineNum (.bin .add (.var .lineNum) (.int 1)))
      .skip)) <|
  (.ret (.call1 .newNumber (.call1 .float64 (.var .lineNum))) .nil))

/-- /repo/edlisp/builtin_replace_match.go:14-45 `BuiltinReplaceMatch` -/
def goReplaceMatch : GoS :=
  (.seq (.if_ (.bin .ne (.len (.var .args)) (.int 1))
    (.ret .nil (.errorf1 (b! "replace-match expects 1 argument, got ") (.len (.var .args))))
    .skip) <|
  .seq (.if_ (.not (.call1 .isString (.index (.var .args) (.int 0))))
    (.ret .nil (.errorf (b! "replace-match expects a string argument")))
    .skip) <|
  .seq (.set .str (.assert .isString (.index (.var .args) (.int 0)))) <|
  .seq (.if_ (.bin .eq (.buf .lastMatch) (.str (b! "")))
    (.ret .nil (.errorf (b! "no previous search")))
    .skip) <|
  .seq (.set .content (.buf .content)) <|
  .seq (.set .start (.bin .sub (.buf .lastStart) (.int 1))) <|
  .seq (.set .«end» (.bin .sub (.buf .lastEnd) (.int 1))) <|
  .seq (.if_ (.bin .or (.bin .or (.bin .lt (.var .start) (.int 0)) (.bin .gt (.var .«end») (.len (.var .content)))) (.bin .ge (.var .start) (.var .«end»)))
    (.ret .nil (.errorf (b! "invalid search match positions")))
    .skip) <|
  .seq (.set .newContent (.bin .add (.bin .add (.sliceTo (.var .content) (.var .start)) (.value (.var .str))) (.sliceFrom (.var .content) (.var .«end»)))) <|
  .seq .reset <|
  .seq (.write (.var .newContent)) <|
  .seq (.setBuf .point (.bin .add (.bin .add (.var .start) (.len (.value (.var .str)))) (.int 1))) <|
  (.ret (.call1 .newString (.str (b! ""))) .nil))

/-- /repo/edlisp/builtin_delete_region.go:11-45 `BuiltinDeleteRegion` -/
def goDeleteRegion : GoS :=
  (.seq (.if_ (.bin .ne (.len (.var .args)) (.int 0))
    (.ret .nil (.errorf1 (b! "delete-region expects 0 arguments, got ") (.len (.var .args))))
    .skip) <|
  .seq (.set .start (.buf .mark)) <|
  .seq (.set .«end» (.buf .point)) <|
  .seq (.if_ (.bin .gt (.var .start) (.var .«end»))
    (.set2 .start .«end» (.var .«end») (.var .start))
    .skip) <|
  .seq (.set .content (.buf .content)) <|
  .seq (.set .start (.bin .sub (.var .start) (.int 1))) <|
  .seq (.set .«end» (.bin .sub (.var .«end») (.int 1))) <|
  .seq (.if_ (.bin .lt (.var .start) (.int 0))
    (.set .start (.int 0))
    .skip) <|
  .seq (.if_ (.bin .gt (.var .«end») (.len (.var .content)))
    (.set .«end» (.len (.var .content)))
    .skip) <|
  .seq (.if_ (.bin .ge (.var .start) (.var .«end»))
    (.ret (.call1 .newString (.str (b! ""))) .nil)
    .skip) <|
  .seq (.set .newContent (.bin .add (.sliceTo (.var .content) (.var .start)) (.sliceFrom (.var .content) (.var .«end»)))) <|
  .seq .reset <|
  .seq (.write (.var .newContent)) <|
  .seq (.setBuf .point (.bin .add (.var .start) (.int 1))) <|
  (.ret (.call1 .newString (.str (b! ""))) .nil))

/-- /repo/edlisp/builtin_buffer_substring.go:41-74 `BuiltinBufferSubstring` -/
def goBufferSubstring : GoS :=
  (.seq (.if_ (.bin .ne (.len (.var .args)) (.int 2))
    (.ret .nil (.errorf1 (b! "buffer-substring expects 2 arguments, got ") (.len (.var .args))))
    .skip) <|
  .seq (.if_ (.bin .or (.not (.call1 .isNumber (.index (.var .args) (.int 0)))) (.not (.call1 .isNumber (.index (.var .args) (.int 1)))))
    (.ret .nil (.errorf (b! "buffer-substring expects number arguments")))
    .skip) <|
  .seq (.set .start (.call1 .int (.value (.assert .isNumber (.index (.var .args) (.int 0)))))) <|
  .seq (.set .«end» (.call1 .int (.value (.assert .isNumber (.index (.var .args) (.int 1)))))) <|
  .seq (.set .content (.buf .content)) <|
  .seq (.if_ (.bin .eq (.var .«end») (.int (-1)))
    (.set .«end» (.bin .add (.len (.var .content)) (.int 1)))
    .skip) <|
  .seq (.set .start (.bin .sub (.var .start) (.int 1))) <|
  .seq (.set .«end» (.bin .sub (.var .«end») (.int 1))) <|
  .seq (.if_ (.bin .lt (.var .start) (.int 0))
    (.set .start (.int 0))
    .skip) <|
  .seq (.if_ (.bin .gt (.var .«end») (.len (.var .content)))
    (.set .«end» (.len (.var .content)))
    .skip) <|
  .seq (.if_ (.bin .ge (.var .start) (.var .«end»))
    (.ret (.call1 .newString (.str (b! ""))) .nil)
    .skip) <|
  (.ret (.call1 .newString (.slice (.var .content) (.var .start) (.var .«end»))) .nil))

/-- /repo/edlisp/builtin_mark_word.go:12-41 `BuiltinMarkWord` -/
def goMarkWord : GoS :=
  (.seq (.if_ (.bin .ne (.len (.var .args)) (.int 0))
    (.ret .nil (.errorf1 (b! "mark-word expects 0 arguments, got ") (.len (.var .args))))
    .skip) <|
  .seq (.set .content (.buf .content)) <|
  .seq (.set .pos (.bin .sub (.buf .point) (.int 1))) <|
  .seq (.if_ (.bin .or (.bin .lt (.var .pos) (.int 0)) (.bin .ge (.var .pos) (.len (.var .content))))
    (.ret (.call1 .newString (.str (b! ""))) .nil)
    .skip) <|
  .seq (.set .start (.var .pos)) <|
  .seq (.while (.bin .and (.bin .gt (.var .start) (.int 0)) (.call1 .isLetter (.index (.var .content) (.bin .sub (.var .start) (.int 1))))) .skip
    (.set .start (.bin .sub (.var .start) (.int 1)))) <|
  .seq (.set .«end» (.var .pos)) <|
  .seq (.while (.bin .and (.bin .lt (.var .«end») (.len (.var .content))) (.call1 .isLetter (.index (.var .content) (.var .«end»)))) .skip
    (.set .«end» (.bin .add (.var .«end») (.int 1)))) <|
  .seq (.setBuf .mark (.bin .add (.var .start) (.int 1))) <|
  .seq (.setBuf .point (.bin .add (.var .«end») (.int 1))) <|
  (.ret (.call1 .newString (.str (b! ""))) .nil))

/-- /repo/edlisp/builtin_replace_region.go:10-50 `BuiltinReplaceRegion` -/
def goReplaceRegion : GoS :=
  (.seq (.if_ (.bin .ne (.len (.var .args)) (.int 1))
    (.ret .nil (.errorf1 (b! "replace-region expects 1 argument, got ") (.len (.var .args))))
    .skip) <|
  .seq (.if_ (.not (.call1 .isString (.index (.var .args) (.int 0))))
    (.ret .nil (.errorf (b! "replace-region expects a string argument")))
    .skip) <|
  .seq (.set .str (.assert .isString (.index (.var .args) (.int 0)))) <|
  .seq (.set .start (.buf .mark)) <|
  .seq (.set .«end» (.buf .point)) <|
  .seq (.if_ (.bin .gt (.var .start) (.var .«end»))
    (.set2 .start .«end» (.var .«end») (.var .start))
    .skip) <|
  .seq (.set .content (.buf .content)) <|
  .seq (.set .start (.bin .sub (.var .start) (.int 1))) <|
  .seq (.set .«end» (.bin .sub (.var .«end») (.int 1))) <|
  .seq (.if_ (.bin .lt (.var .start) (.int 0))
    (.set .start (.int 0))
    .skip) <|
  .seq (.if_ (.bin .gt (.var .«end») (.len (.var .content)))
    (.set .«end» (.len (.var .content)))
    .skip) <|
  .seq (.if_ (.bin .ge (.var .start) (.var .«end»))
    (.ret (.call1 .newString (.str (b! ""))) .nil)
    .skip) <|
  .seq (.set .newContent (.bin .add (.bin .add (.sliceTo (.var .content) (.var .start)) (.value (.var .str))) (.sliceFrom (.var .content) (.var .«end»)))) <|
  .seq .reset <|
  .seq (.write (.var .newContent)) <|
  .seq (.setBuf .point (.bin .add (.bin .add (.var .start) (.len (.value (.var .str)))) (.int 1))) <|
  (.ret (.call1 .newString (.str (b! ""))) .nil))

/-- /repo/edlisp/builtin_region_beginning.go:11-24 `BuiltinRegionBeginning` -/
def goRegionBeginning : GoS :=
  (.seq (.if_ (.bin .ne (.len (.var .args)) (.int 0))
    (.ret .nil (.errorf1 (b! "region-beginning expects 0 arguments, got ") (.len (.var .args))))
    .skip) <|
  .seq (.set .start (.buf .mark)) <|
  .seq (.set .«end» (.buf .point)) <|
  .seq (.if_ (.bin .gt (.var .start) (.var .«end»))
    (.set .start (.var .«end»))
    .skip) <|
  (.ret (.call1 .newNumber (.call1 .float64 (.var .start))) .nil))

/-- /repo/edlisp/builtin_region_end.go:11-24 `BuiltinRegionEnd` -/
def goRegionEnd : GoS :=
  (.seq (.if_ (.bin .ne (.len (.var .args)) (.int 0))
    (.ret .nil (.errorf1 (b! "region-end expects 0 arguments, got ") (.len (.var .args))))
    .skip) <|
  .seq (.set .start (.buf .mark)) <|
  .seq (.set .«end» (.buf .point)) <|
  .seq (.if_ (.bin .gt (.var .start) (.var .«end»))
    (.set .«end» (.var .start))
    .skip) <|
  (.ret (.call1 .newNumber (.call1 .float64 (.var .«end»))) .nil))

/-- /repo/edlisp/builtin_forward_char.go:10-35 `BuiltinForwardChar` -/
def goForwardChar : GoS :=
  (.seq (.set .count (.int 1)) <|
  .seq (.if_ (.bin .gt (.len (.var .args)) (.int 1))
    (.ret .nil (.errorf1 (b! "forward-char expects at most 1 argument, got ") (.len (.var .args))))
    .skip) <|
  .seq (.if_ (.bin .eq (.len (.var .args)) (.int 1))
    (.seq (.if_ (.not (.call1 .isNumber (.index (.var .args) (.int 0))))
      (.ret .nil (.errorf (b! "forward-char expects a number argument")))
      .skip) <|
    (.set .count (.call1 .int (.value (.assert .isNumber (.index (.var .args) (.int 0)))))))
    .skip) <|
  .seq (.set .content (.buf .content)) <|
  .seq (.set .newPos (.bin .add (.buf .point) (.var .count))) <|
  .seq (.if_ (.bin .lt (.var .newPos) (.int 1))
    (.set .newPos (.int 1))
    (.if_ (.bin .gt (.var .newPos) (.bin .add (.len (.var .content)) (.int 1)))
      (.set .newPos (.bin .add (.len (.var .content)) (.int 1)))
      .skip)) <|
  .seq (.setBuf .point (.var .newPos)) <|
  (.ret (.call1 .newString (.str (b! ""))) .nil))

/-- /repo/edlisp/builtin_length.go:29-40 `BuiltinLength` -/
def goLength : GoS :=
  (.seq (.if_ (.bin .ne (.len (.var .args)) (.int 1))
    (.ret .nil (.errorf1 (b! "length expects 1 argument, got ") (.len (.var .args))))
    .skip) <|
  .seq (.if_ (.not (.call1 .isString (.index (.var .args) (.int 0))))
    (.ret .nil (.errorf (b! "length expects a string argument")))
    .skip) <|
  .seq (.set .str (.assert .isString (.index (.var .args) (.int 0)))) <|
  (.ret (.call1 .newNumber (.call1 .float64 (.len (.value (.var .str))))) .nil))

/-- /repo/edlisp/builtin_substring.go:39-88 `BuiltinSubstring` -/
def goSubstring : GoS :=
  (.seq (.if_ (.bin .or (.bin .lt (.len (.var .args)) (.int 2)) (.bin .gt (.len (.var .args)) (.int 3)))
    (.ret .nil (.errorf1 (b! "substring expects 2 or 3 arguments, got ") (.len (.var .args))))
    .skip) <|
  .seq (.if_ (.not (.call1 .isString (.index (.var .args) (.int 0))))
    (.ret .nil (.errorf (b! "substring expects a string as first argument")))
    .skip) <|
  .seq (.if_ (.not (.call1 .isNumber (.index (.var .args) (.int 1))))
    (.ret .nil (.errorf (b! "substring expects a number as second argument")))
    .skip) <|
  .seq (.set .str (.assert .isString (.index (.var .args) (.int 0)))) <|
  .seq (.set .start (.call1 .int (.value (.assert .isNumber (.index (.var .args) (.int 1)))))) <|
  .seq (.set .«end» (.len (.value (.var .str)))) <|
  .seq (.if_ (.bin .eq (.len (.var .args)) (.int 3))
    (.seq (.if_ (.not (.call1 .isNumber (.index (.var .args) (.int 2))))
      (.ret .nil (.errorf (b! "substring expects a number as third argument")))
      .skip) <|
    (.set .«end» (.call1 .int (.value (.assert .isNumber (.index (.var .args) (.int 2)))))))
    .skip) <|
  .seq (.set .start (.bin .sub (.var .start) (.int 1))) <|
  .seq (.if_ (.bin .eq (.len (.var .args)) (.int 2))
    (.set .«end» (.len (.value (.var .str))))
    (.set .«end» (.bin .sub (.var .«end») (.int 1)))) <|
  .seq (.if_ (.bin .lt (.var .start) (.int 0))
    (.set .start (.int 0))
    .skip) <|
  .seq (.if_ (.bin .gt (.var .«end») (.len (.value (.var .str))))
    (.set .«end» (.len (.value (.var .str))))
    .skip) <|
  .seq (.if_ (.bin .gt (.var .start) (.var .«end»))
    (.ret (.call1 .newString (.str (b! ""))) .nil)
    .skip) <|
  .seq (.set .result (.slice (.value (.var .str)) (.var .start) (.var .«end»))) <|
  (.ret (.call1 .newString (.var .result)) .nil))

/-- /repo/edlisp/builtin_string_match.go:16-46 `BuiltinStringMatch` -/
def goStringMatch : GoS :=
  (.seq (.if_ (.bin .ne (.len (.var .args)) (.int 2))
    (.ret .nil (.errorf1 (b! "string-match expects 2 arguments, got ") (.len (.var .args))))
    .skip) <|
  .seq (.if_ (.bin .or (.not (.call1 .isString (.index (.var .args) (.int 0)))) (.not (.call1 .isString (.index (.var .args) (.int 1)))))
    (.ret .nil (.errorf (b! "string-match expects string arguments")))
    .skip) <|
  .seq (.set .pattern (.assert .isString (.index (.var .args) (.int 0)))) <|
  .seq (.set .str (.assert .isString (.index (.var .args) (.int 1)))) <|
  .seq (.setPair .re .err (.call1 .regexpCompile (.value (.var .pattern)))) <|
  .seq (.if_ (.bin .ne (.var .err) .nil)
    (.seq (.set .index (.call2 .stringsIndex (.value (.var .str)) (.value (.var .pattern)))) <|
    .seq (.if_ (.bin .eq (.var .index) (.int (-1)))
      (.ret (.call1 .newSymbol (.str (b! "nil"))) .nil)
      .skip) <|
    (.ret (.call1 .newNumber (.call1 .float64 (.var .index))) .nil))
    .skip) <|
  .seq (.set .«match» (.call2 .findStringIndex (.var .re) (.value (.var .str)))) <|
  .seq (.if_ (.bin .eq (.var .«match») .nil)
    (.ret (.call1 .newSymbol (.str (b! "nil"))) .nil)
    .skip) <|
  (.ret (.call1 .newNumber (.call1 .float64 (.index (.var .«match») (.int 0)))) .nil))

/-- /repo/edlisp/builtin_backward_char.go:10-32 `BuiltinBackwardChar` -/
def goBackwardChar : GoS :=
  (.seq (.set .count (.int 1)) <|
  .seq (.if_ (.bin .gt (.len (.var .args)) (.int 1))
    (.ret .nil (.errorf1 (b! "backward-char expects at most 1 argument, got ") (.len (.var .args))))
    .skip) <|
  .seq (.if_ (.bin .eq (.len (.var .args)) (.int 1))
    (.seq (.if_ (.not (.call1 .isNumber (.index (.var .args) (.int 0))))
      (.ret .nil (.errorf (b! "backward-char expects a number argument")))
      .skip) <|
    (.set .count (.call1 .int (.value (.assert .isNumber (.index (.var .args) (.int 0)))))))
    .skip) <|
  .seq (.set .newPos (.bin .sub (.buf .point) (.var .count))) <|
  .seq (.if_ (.bin .lt (.var .newPos) (.int 1))
    (.set .newPos (.int 1))
    .skip) <|
  .seq (.setBuf .point (.var .newPos)) <|
  (.ret (.call1 .newString (.str (b! ""))) .nil))

/-- /repo/edlisp/builtin_beginning_of_buffer.go:9-16 `BuiltinBeginningOfBuffer` -/
def goBeginningOfBuffer : GoS :=
  (.seq (.if_ (.bin .ne (.len (.var .args)) (.int 0))
    (.ret .nil (.errorf1 (b! "beginning-of-buffer expects 0 arguments, got ") (.len (.var .args))))
    .skip) <|
  .seq (.setBuf .point (.int 1)) <|
  (.ret (.call1 .newString (.str (b! ""))) .nil))

/-- /repo/edlisp/builtin_beginning_of_line.go:10-33 `BuiltinBeginningOfLine` -/
def goBeginningOfLine : GoS :=
  (.seq (.if_ (.bin .ne (.len (.var .args)) (.int 0))
    (.ret .nil (.errorf1 (b! "beginning-of-line expects 0 arguments, got ") (.len (.var .args))))
    .skip) <|
  .seq (.set .content (.buf .content)) <|
  .seq (.set .pos (.bin .sub (.buf .point) (.int 1))) <|
  .seq (.if_ (.bin .lt (.var .pos) (.int 0))
    (.seq (.setBuf .point (.int 1)) <|
    (.ret (.call1 .newString (.str (b! ""))) .nil))
    .skip) <|
  .seq (.if_ (.bin .ge (.var .pos) (.len (.var .content)))
    (.set .pos (.bin .sub (.len (.var .content)) (.int 1)))
    .skip) <|
  .seq (.while (.bin .and (.bin .gt (.var .pos) (.int 0)) (.bin .ne (.index (.var .content) (.bin .sub (.var .pos) (.int 1))) (.char 10))) .skip
    (.set .pos (.bin .sub (.var .pos) (.int 1)))) <|
  .seq (.setBuf .point (.bin .add (.var .pos) (.int 1))) <|
  (.ret (.call1 .newString (.str (b! ""))) .nil))

/-- /repo/edlisp/builtin_end_of_line.go:10-35 `BuiltinEndOfLine` -/
def goEndOfLine : GoS :=
  (.seq (.if_ (.bin .ne (.len (.var .args)) (.int 0))
    (.ret .nil (.errorf1 (b! "end-of-line expects 0 arguments, got ") (.len (.var .args))))
    .skip) <|
  .seq (.set .content (.buf .content)) <|
  .seq (.set .pos (.bin .sub (.buf .point) (.int 1))) <|
  .seq (.if_ (.bin .lt (.var .pos) (.int 0))
    (.set .pos (.int 0))
    .skip) <|
  .seq (.if_ (.bin .ge (.var .pos) (.len (.var .content)))
    (.seq (.setBuf .point (.bin .add (.len (.var .content)) (.int 1))) <|
    (.ret (.call1 .newString (.str (b! ""))) .nil))
    .skip) <|
  .seq (.while (.bin .and (.bin .lt (.var .pos) (.len (.var .content))) (.bin .ne (.index (.var .content) (.var .pos)) (.char 10))) .skip
    (.set .pos (.bin .add (.var .pos) (.int 1)))) <|
  .seq (.setBuf .point (.bin .add (.var .pos) (.int 1))) <|
  (.ret (.call1 .newString (.str (b! ""))) .nil))

/-- /repo/edlisp/builtin_buffer_size.go:28-35 `BuiltinBufferSize` -/
def goBufferSize : GoS :=
  (.seq (.if_ (.bin .ne (.len (.var .args)) (.int 0))
    (.ret .nil (.errorf1 (b! "buffer-size expects 0 arguments, got ") (.len (.var .args))))
    .skip) <|
  .seq (.set .content (.buf .content)) <|
  (.ret (.call1 .newNumber (.call1 .float64 (.len (.var .content)))) .nil))

/-- /repo/edlisp/builtin_point_max.go:37-44 `BuiltinPointMax` -/
def goPointMax : GoS :=
  (.seq (.if_ (.bin .ne (.len (.var .args)) (.int 0))
    (.ret .nil (.errorf1 (b! "point-max expects 0 arguments, got ") (.len (.var .args))))
    .skip) <|
  .seq (.set .content (.buf .content)) <|
  (.ret (.call1 .newNumber (.call1 .float64 (.bin .add (.len (.var .content)) (.int 1)))) .nil))

/-- /repo/edlisp/builtin_point_min.go:39-45 `BuiltinPointMin` -/
def goPointMin : GoS :=
  (.seq (.if_ (.bin .ne (.len (.var .args)) (.int 0))
    (.ret .nil (.errorf1 (b! "point-min expects 0 arguments, got ") (.len (.var .args))))
    .skip) <|
  (.ret (.call1 .newNumber (.call1 .float64 (.int 1))) .nil))

/-- /repo/edlisp/builtin_current_column.go:39-61 `BuiltinCurrentColumn` -/
def goCurrentColumn : GoS :=
  (.seq (.if_ (.bin .ne (.len (.var .args)) (.int 0))
    (.ret .nil (.errorf1 (b! "current-column expects 0 arguments, got ") (.len (.var .args))))
    .skip) <|
  .seq (.set .content (.buf .content)) <|
  .seq (.set .pos (.bin .sub (.buf .point) (.int 1))) <|
  .seq (.if_ (.bin .lt (.var .pos) (.int 0))
    (.ret (.call1 .newNumber (.call1 .float64 (.int 0))) .nil)
    .skip) <|
  .seq (.if_ (.bin .ge (.var .pos) (.len (.var .content)))
    (.set .pos (.bin .sub (.len (.var .content)) (.int 1)))
    .skip) <|
  .seq (.set .column (.int 0)) <|
  .seq (.set .i (.var .pos)) <|
  .seq (.while (.bin .and (.bin .ge (.var .i) (.int 0)) (.bin .ne (.index (.var .content) (.var .i)) (.char 10))) (.set .i (.bin .sub (.var .i) (.int 1)))
    (.set .column (.bin .add (.var .column) (.int 1)))) <|
  (.ret (.call1 .newNumber (.call1 .float64 (.var .column))) .nil))

/-- /repo/edlisp/builtin_upcase.go:31-42 `BuiltinUpcase` -/
def goUpcase : GoS :=
  (.seq (.if_ (.bin .ne (.len (.var .args)) (.int 1))
    (.ret .nil (.errorf1 (b! "upcase expects 1 argument, got ") (.len (.var .args))))
    .skip) <|
  .seq (.if_ (.not (.call1 .isString (.index (.var .args) (.int 0))))
    (.ret .nil (.errorf (b! "upcase expects a string argument")))
    .skip) <|
  .seq (.set .str (.assert .isString (.index (.var .args) (.int 0)))) <|
  (.ret (.call1 .newString (.call1 .stringsToUpper (.value (.var .str)))) .nil))

/-- /repo/edlisp/builtin_downcase.go:31-42 `BuiltinDowncase` -/
def goDowncase : GoS :=
  (.seq (.if_ (.bin .ne (.len (.var .args)) (.int 1))
    (.ret .nil (.errorf1 (b! "downcase expects 1 argument, got ") (.len (.var .args))))
    .skip) <|
  .seq (.if_ (.not (.call1 .isString (.index (.var .args) (.int 0))))
    (.ret .nil (.errorf (b! "downcase expects a string argument")))
    .skip) <|
  .seq (.set .str (.assert .isString (.index (.var .args) (.int 0)))) <|
  (.ret (.call1 .newString (.call1 .stringsToLower (.value (.var .str)))) .nil))

/-- /repo/edlisp/builtin_capitalize.go:32-48 `BuiltinCapitalize` -/
def goCapitalize : GoS :=
  (.seq (.if_ (.bin .ne (.len (.var .args)) (.int 1))
    (.ret .nil (.errorf1 (b! "capitalize expects 1 argument, got ") (.len (.var .args))))
    .skip) <|
  .seq (.if_ (.not (.call1 .isString (.index (.var .args) (.int 0))))
    (.ret .nil (.errorf (b! "capitalize expects a string argument")))
    .skip) <|
  .seq (.set .str (.assert .isString (.index (.var .args) (.int 0)))) <|
  .seq (.if_ (.bin .eq (.len (.value (.var .str))) (.int 0))
    (.ret (.call1 .newString (.str (b! ""))) .nil)
    .skip) <|
  .seq (.set .result (.bin .add (.call1 .stringsToUpper (.call1 .string (.index (.value (.var .str)) (.int 0)))) (.call1 .stringsToLower (.sliceFrom (.value (.var .str)) (.int 1))))) <|
  (.ret (.call1 .newString (.var .result)) .nil))

/-- /repo/edlisp/builtin_concat.go:32-44 `BuiltinConcat` -/
def goConcat : GoS :=
  (.seq (.set .result (.str [])) <|
  .seq (.range .i .arg (.var .args)
    (.seq (.if_ (.not (.call1 .isString (.var .arg)))
      (.ret .nil (.errorf1 (b! "concat expects string arguments, got non-string at position ") (.bin .add (.var .i) (.int 1))))
      .skip) <|
    .seq (.set .str (.assert .isString (.var .arg))) <|
    (.set .result (.bin .add (.var .result) (.value (.var .str)))))) <|
  (.ret (.call1 .newString (.var .result)) .nil))

/-- /repo/edlisp/builtin_set_mark_command.go:11-29 `BuiltinSetMarkCommand` -/
def goSetMarkCommand : GoS :=
  (.seq (.set .pos (.int 0)) <|
  .seq (.if_ (.bin .gt (.len (.var .args)) (.int 1))
    (.ret .nil (.errorf1 (b! "set-mark-command expects at most 1 argument, got ") (.len (.var .args))))
    .skip) <|
  .seq (.if_ (.bin .eq (.len (.var .args)) (.int 1))
    (.seq (.if_ (.not (.call1 .isNumber (.index (.var .args) (.int 0))))
      (.ret .nil (.errorf (b! "set-mark-command expects a number argument")))
      .skip) <|
    (.set .pos (.call1 .int (.value (.assert .isNumber (.index (.var .args) (.int 0)))))))
    (.set .pos (.buf .point))) <|
  .seq (.setBuf .mark (.var .pos)) <|
  (.ret (.call1 .newString (.str (b! ""))) .nil))

/-- /repo/edlisp/builtin_exchange_point_and_mark.go:12-24 `BuiltinExchangePointAndMark` -/
def goExchangePointAndMark : GoS :=
  (.seq (.if_ (.bin .ne (.len (.var .args)) (.int 0))
    (.ret .nil (.errorf1 (b! "exchange-point-and-mark expects 0 arguments, got ") (.len (.var .args))))
    .skip) <|
  .seq (.set .point (.buf .point)) <|
  .seq (.set .mark (.buf .mark)) <|
  .seq (.setBuf .point (.var .mark)) <|
  .seq (.setBuf .mark (.var .point)) <|
  (.ret (.call1 .newString (.str (b! ""))) .nil))

/-- /repo/edlisp/builtin_mark_whole_buffer.go:12-22 `BuiltinMarkWholeBuffer` -/
def goMarkWholeBuffer : GoS :=
  (.seq (.if_ (.bin .ne (.len (.var .args)) (.int 0))
    (.ret .nil (.errorf1 (b! "mark-whole-buffer expects 0 arguments, got ") (.len (.var .args))))
    .skip) <|
  .seq (.set .content (.buf .content)) <|
  .seq (.setBuf .mark (.int 1)) <|
  .seq (.setBuf .point (.bin .add (.len (.var .content)) (.int 1))) <|
  (.ret (.call1 .newString (.str (b! ""))) .nil))

/-- /repo/edlisp/builtin_delete_char.go:10-44 `BuiltinDeleteChar` -/
def goDeleteChar : GoS :=
  (.seq (.set .count (.int 1)) <|
  .seq (.if_ (.bin .gt (.len (.var .args)) (.int 1))
    (.ret .nil (.errorf1 (b! "delete-char expects at most 1 argument, got ") (.len (.var .args))))
    .skip) <|
  .seq (.if_ (.bin .eq (.len (.var .args)) (.int 1))
    (.seq (.if_ (.not (.call1 .isNumber (.index (.var .args) (.int 0))))
      (.ret .nil (.errorf (b! "delete-char expects a number argument")))
      .skip) <|
    (.set .count (.call1 .int (.value (.assert .isNumber (.index (.var .args) (.int 0)))))))
    .skip) <|
  .seq (.set .content (.buf .content)) <|
  .seq (.set .pos (.buf .point)) <|
  .seq (.if_ (.bin .or (.bin .lt (.var .pos) (.int 1)) (.bin .gt (.var .pos) (.len (.var .content))))
    (.ret (.call1 .newString (.str (b! ""))) .nil)
    .skip) <|
  .seq (.set .startPos (.bin .sub (.var .pos) (.int 1))) <|
  .seq (.set .endPos (.bin .add (.var .startPos) (.var .count))) <|
  .seq (.if_ (.bin .gt (.var .endPos) (.len (.var .content)))
    (.set .endPos (.len (.var .content)))
    .skip) <|
  .seq (.set .newContent (.bin .add (.sliceTo (.var .content) (.var .startPos)) (.sliceFrom (.var .content) (.var .endPos)))) <|
  .seq .reset <|
  .seq (.write (.var .newContent)) <|
  (.ret (.call1 .newString (.str (b! ""))) .nil))

/-- /repo/edlisp/builtin_delete_backward_char.go:10-46 `BuiltinDeleteBackwardChar` -/
def goDeleteBackwardChar : GoS :=
  (.seq (.set .count (.int 1)) <|
  .seq (.if_ (.bin .gt (.len (.var .args)) (.int 1))
    (.ret .nil (.errorf1 (b! "delete-backward-char expects at most 1 argument, got ") (.len (.var .args))))
    .skip) <|
  .seq (.if_ (.bin .eq (.len (.var .args)) (.int 1))
    (.seq (.if_ (.not (.call1 .isNumber (.index (.var .args) (.int 0))))
      (.ret .nil (.errorf (b! "delete-backward-char expects a number argument")))
      .skip) <|
    (.set .count (.call1 .int (.value (.assert .isNumber (.index (.var .args) (.int 0)))))))
    .skip) <|
  .seq (.set .content (.buf .content)) <|
  .seq (.set .pos (.bin .sub (.buf .point) (.int 1))) <|
  .seq (.set .endPos (.var .pos)) <|
  .seq (.set .startPos (.bin .sub (.var .pos) (.var .count))) <|
  .seq (.if_ (.bin .lt (.var .startPos) (.int 0))
    (.set .startPos (.int 0))
    .skip) <|
  .seq (.if_ (.bin .ge (.var .startPos) (.var .endPos))
    (.ret (.call1 .newString (.str (b! ""))) .nil)
    .skip) <|
  .seq (.set .newContent (.bin .add (.sliceTo (.var .content) (.var .startPos)) (.sliceFrom (.var .content) (.var .endPos)))) <|
  .seq .reset <|
  .seq (.write (.var .newContent)) <|
  .seq (.setBuf .point (.bin .add (.var .startPos) (.int 1))) <|
  (.ret (.call1 .newString (.str (b! ""))) .nil))

/-- /repo/edlisp/builtin_forward_word.go:12-42 `BuiltinForwardWord` -/
def goForwardWord : GoS :=
  (.seq (.set .count (.int 1)) <|
  .seq (.if_ (.bin .gt (.len (.var .args)) (.int 1))
    (.ret .nil (.errorf1 (b! "forward-word expects at most 1 argument, got ") (.len (.var .args))))
    .skip) <|
  .seq (.if_ (.bin .eq (.len (.var .args)) (.int 1))
    (.seq (.if_ (.not (.call1 .isNumber (.index (.var .args) (.int 0))))
      (.ret .nil (.errorf (b! "forward-word expects a number argument")))
      .skip) <|
    (.set .count (.call1 .int (.value (.assert .isNumber (.index (.var .args) (.int 0)))))))
    .skip) <|
  .seq (.set .content (.buf .content)) <|
  .seq (.set .pos (.bin .sub (.buf .point) (.int 1))) <|
  .seq (.set .i (.int 0)) <|
  .seq (.while (.bin .and (.bin .lt (.var .i) (.var .count)) (.bin .lt (.var .pos) (.len (.var .content)))) (.set .i (.bin .add (.var .i) (.int 1)))
    (.seq (.while (.bin .and (.bin .lt (.var .pos) (.len (.var .content))) (.not (.call1 .isLetter (.index (.var .content) (.var .pos))))) .skip
      (.set .pos (.bin .add (.var .pos) (.int 1)))) <|
    (.while (.bin .and (.bin .lt (.var .pos) (.len (.var .content))) (.call1 .isLetter (.index (.var .content) (.var .pos)))) .skip
      (.set .pos (.bin .add (.var .pos) (.int 1)))))) <|
  .seq (.setBuf .point (.bin .add (.var .pos) (.int 1))) <|
  (.ret (.call1 .newString (.str (b! ""))) .nil))

/-- /repo/edlisp/builtin_backward_word.go:12-42 `BuiltinBackwardWord` -/
def goBackwardWord : GoS :=
  (.seq (.set .count (.int 1)) <|
  .seq (.if_ (.bin .gt (.len (.var .args)) (.int 1))
    (.ret .nil (.errorf1 (b! "backward-word expects at most 1 argument, got ") (.len (.var .args))))
    .skip) <|
  .seq (.if_ (.bin .eq (.len (.var .args)) (.int 1))
    (.seq (.if_ (.not (.call1 .isNumber (.index (.var .args) (.int 0))))
      (.ret .nil (.errorf (b! "backward-word expects a number argument")))
      .skip) <|
    (.set .count (.call1 .int (.value (.assert .isNumber (.index (.var .args) (.int 0)))))))
    .skip) <|
  .seq (.set .content (.buf .content)) <|
  .seq (.set .pos (.bin .sub (.buf .point) (.int 1))) <|
  .seq (.set .i (.int 0)) <|
  .seq (.while (.bin .and (.bin .lt (.var .i) (.var .count)) (.bin .gt (.var .pos) (.int 0))) (.set .i (.bin .add (.var .i) (.int 1)))
    (.seq (.while (.bin .and (.bin .gt (.var .pos) (.int 0)) (.not (.call1 .isLetter (.index (.var .content) (.bin .sub (.var .pos) (.int 1)))))) .skip
      (.set .pos (.bin .sub (.var .pos) (.int 1)))) <|
    (.while (.bin .and (.bin .gt (.var .pos) (.int 0)) (.call1 .isLetter (.index (.var .content) (.bin .sub (.var .pos) (.int 1))))) .skip
      (.set .pos (.bin .sub (.var .pos) (.int 1)))))) <|
  .seq (.setBuf .point (.bin .add (.var .pos) (.int 1))) <|
  (.ret (.call1 .newString (.str (b! ""))) .nil))

/-- /repo/edlisp/builtin_looking_at.go:15-49 `BuiltinLookingAt` -/
def goLookingAt : GoS :=
  (.seq (.if_ (.bin .ne (.len (.var .args)) (.int 1))
    (.ret .nil (.errorf1 (b! "looking-at expects 1 argument, got ") (.len (.var .args))))
    .skip) <|
  .seq (.if_ (.not (.call1 .isString (.index (.var .args) (.int 0))))
    (.ret .nil (.errorf (b! "looking-at expects a string argument")))
    .skip) <|
  .seq (.set .pattern (.assert .isString (.index (.var .args) (.int 0)))) <|
  .seq (.set .content (.buf .content)) <|
  .seq (.set .pos (.bin .sub (.buf .point) (.int 1))) <|
  .seq (.if_ (.bin .or (.bin .lt (.var .pos) (.int 0)) (.bin .ge (.var .pos) (.len (.var .content))))
    (.ret (.call1 .newSymbol (.str (b! "nil"))) .nil)
    .skip) <|
  .seq (.setPair .re .err (.call1 .regexpCompile (.value (.var .pattern)))) <|
  .seq (.if_ (.bin .ne (.var .err) .nil)
    (.seq (.if_ (.call2 .stringsHasPrefix (.sliceFrom (.var .content) (.var .pos)) (.value (.var .pattern)))
      (.ret (.call1 .newSymbol (.str (b! "t"))) .nil)
      .skip) <|
    (.ret (.call1 .newSymbol (.str (b! "nil"))) .nil))
    .skip) <|
  .seq (.set .«match» (.call2 .findStringIndex (.var .re) (.sliceFrom (.var .content) (.var .pos)))) <|
  .seq (.if_ (.bin .and (.bin .ne (.var .«match») .nil) (.bin .eq (.index (.var .«match») (.int 0)) (.int 0)))
    (.ret (.call1 .newSymbol (.str (b! "t"))) .nil)
    .skip) <|
  (.ret (.call1 .newSymbol (.str (b! "nil"))) .nil))

/-- /repo/edlisp/builtin_looking_back.go:17-52 `BuiltinLookingBack` -/
def goLookingBack : GoS :=
  (.seq (.if_ (.bin .ne (.len (.var .args)) (.int 1))
    (.ret .nil (.errorf1 (b! "looking-back expects 1 argument, got ") (.len (.var .args))))
    .skip) <|
  .seq (.if_ (.not (.call1 .isString (.index (.var .args) (.int 0))))
    (.ret .nil (.errorf (b! "looking-back expects a string argument")))
    .skip) <|
  .seq (.set .pattern (.assert .isString (.index (.var .args) (.int 0)))) <|
  .seq (.set .content (.buf .content)) <|
  .seq (.set .pos (.bin .sub (.buf .point) (.int 1))) <|
  .seq (.if_ (.bin .le (.var .pos) (.int 0))
    (.ret (.call1 .newSymbol (.str (b! "nil"))) .nil)
    .skip) <|
  .seq (.setPair .re .err (.call1 .regexpCompile (.value (.var .pattern)))) <|
  .seq (.if_ (.bin .ne (.var .err) .nil)
    (.seq (.if_ (.bin .and (.bin .ge (.var .pos) (.len (.value (.var .pattern)))) (.call2 .stringsHasSuffix (.sliceTo (.var .content) (.var .pos)) (.value (.var .pattern))))
      (.ret (.call1 .newSymbol (.str (b! "t"))) .nil)
      .skip) <|
    (.ret (.call1 .newSymbol (.str (b! "nil"))) .nil))
    .skip) <|
  .seq (.set .beforeText (.sliceTo (.var .content) (.var .pos))) <|
  .seq (.set .«match» (.call2 .findStringIndex (.var .re) (.var .beforeText))) <|
  .seq (.if_ (.bin .and (.bin .ne (.var .«match») .nil) (.bin .eq (.index (.var .«match») (.int 1)) (.len (.var .beforeText))))
    (.ret (.call1 .newSymbol (.str (b! "t"))) .nil)
    .skip) <|
  (.ret (.call1 .newSymbol (.str (b! "nil"))) .nil))

/-- /repo/edlisp/builtin_mark_line.go:12-50 `BuiltinMarkLine` -/
def goMarkLine : GoS :=
  (.seq (.set .count (.int 1)) <|
  .seq (.if_ (.bin .gt (.len (.var .args)) (.int 1))
    (.ret .nil (.errorf1 (b! "mark-line expects at most 1 argument, got ") (.len (.var .args))))
    .skip) <|
  .seq (.if_ (.bin .eq (.len (.var .args)) (.int 1))
    (.seq (.if_ (.not (.call1 .isNumber (.index (.var .args) (.int 0))))
      (.ret .nil (.errorf (b! "mark-line expects a number argument")))
      .skip) <|
    (.set .count (.call1 .int (.value (.assert .isNumber (.index (.var .args) (.int 0)))))))
    .skip) <|
  .seq (.set .content (.buf .content)) <|
  .seq (.set .pos (.bin .sub (.buf .point) (.int 1))) <|
  .seq (.set .lineStart (.var .pos)) <|
  .seq (.while (.bin .and (.bin .gt (.var .lineStart) (.int 0)) (.bin .ne (.index (.var .content) (.bin .sub (.var .lineStart) (.int 1))) (.char 10))) .skip
    (.set .lineStart (.bin .sub (.var .lineStart) (.int 1)))) <|
  .seq (.set .lineEnd (.var .pos)) <|
  .seq (.set .i (.int 0)) <|
  .seq (.while (.bin .lt (.var .i) (.var .count)) (.set .i (.bin .add (.var .i) (.int 1)))
    (.seq (.while (.bin .and (.bin .lt (.var .lineEnd) (.len (.var .content))) (.bin .ne (.index (.var .content) (.var .lineEnd)) (.char 10))) .skip
      (.set .lineEnd (.bin .add (.var .lineEnd) (.int 1)))) <|
    (.if_ (.bin .and (.bin .lt (.var .lineEnd) (.len (.var .content))) (.bin .eq (.index (.var .content) (.var .lineEnd)) (.char 10)))
      (.set .lineEnd (.bin .add (.var .lineEnd) (.int 1)))
      .skip))) <|
  .seq (.setBuf .mark (.bin .add (.var .lineStart) (.int 1))) <|
  .seq (.setBuf .point (.bin .add (.var .lineEnd) (.int 1))) <|
  (.ret (.call1 .newString (.str (b! ""))) .nil))

/-- /repo/edlisp/builtin_delete_line.go:11-52 `BuiltinDeleteLine` -/
def goDeleteLine : GoS :=
  (.seq (.set .count (.int 1)) <|
  .seq (.if_ (.bin .gt (.len (.var .args)) (.int 1))
    (.ret .nil (.errorf1 (b! "delete-line expects at most 1 argument, got ") (.len (.var .args))))
    .skip) <|
  .seq (.if_ (.bin .eq (.len (.var .args)) (.int 1))
    (.seq (.if_ (.not (.call1 .isNumber (.index (.var .args) (.int 0))))
      (.ret .nil (.errorf (b! "delete-line expects a number argument")))
      .skip) <|
    (.set .count (.call1 .int (.value (.assert .isNumber (.index (.var .args) (.int 0)))))))
    .skip) <|
  .seq (.set .content (.buf .content)) <|
  .seq (.set .pos (.bin .sub (.buf .point) (.int 1))) <|
  .seq (.set .lineStart (.var .pos)) <|
  .seq (.while (.bin .and (.bin .gt (.var .lineStart) (.int 0)) (.bin .ne (.index (.var .content) (.bin .sub (.var .lineStart) (.int 1))) (.char 10))) .skip
    (.set .lineStart (.bin .sub (.var .lineStart) (.int 1)))) <|
  .seq (.set .lineEnd (.var .pos)) <|
  .seq (.set .i (.int 0)) <|
  .seq (.while (.bin .lt (.var .i) (.var .count)) (.set .i (.bin .add (.var .i) (.int 1)))
    (.seq (.while (.bin .and (.bin .lt (.var .lineEnd) (.len (.var .content))) (.bin .ne (.index (.var .content) (.var .lineEnd)) (.char 10))) .skip
      (.set .lineEnd (.bin .add (.var .lineEnd) (.int 1)))) <|
    (.if_ (.bin .and (.bin .lt (.var .lineEnd) (.len (.var .content))) (.bin .eq (.index (.var .content) (.var .lineEnd)) (.char 10)))
      (.set .lineEnd (.bin .add (.var .lineEnd) (.int 1)))
      .skip))) <|
  .seq (.set .newContent (.bin .add (.sliceTo (.var .content) (.var .lineStart)) (.sliceFrom (.var .content) (.var .lineEnd)))) <|
  .seq .reset <|
  .seq (.write (.var .newContent)) <|
  .seq (.setBuf .point (.bin .add (.var .lineStart) (.int 1))) <|
  (.ret (.call1 .newString (.str (b! ""))) .nil))

/-- /repo/edlisp/builtin_kill_line.go:11-63 `BuiltinKillLine` -/
def goKillLine : GoS :=
  (.seq (.set .count (.int 1)) <|
  .seq (.if_ (.bin .gt (.len (.var .args)) (.int 1))
    (.ret .nil (.errorf1 (b! "kill-line expects at most 1 argument, got ") (.len (.var .args))))
    .skip) <|
  .seq (.if_ (.bin .eq (.len (.var .args)) (.int 1))
    (.seq (.if_ (.not (.call1 .isNumber (.index (.var .args) (.int 0))))
      (.ret .nil (.errorf (b! "kill-line expects a number argument")))
      .skip) <|
    (.set .count (.call1 .int (.value (.assert .isNumber (.index (.var .args) (.int 0)))))))
    .skip) <|
  .seq (.set .content (.buf .content)) <|
  .seq (.set .pos (.bin .sub (.buf .point) (.int 1))) <|
  .seq (.if_ (.bin .or (.bin .lt (.var .pos) (.int 0)) (.bin .ge (.var .pos) (.len (.var .content))))
    (.ret (.call1 .newString (.str (b! ""))) .nil)
    .skip) <|
  .seq (.set .startPos (.int 0)) <|
  .seq (.set .lineEnd (.int 0)) <|
  .seq (.if_ (.bin .eq (.var .count) (.int 1))
    (.seq (.set .startPos (.bin .add (.var .pos) (.int 1))) <|
    .seq (.set .lineEnd (.var .startPos)) <|
    (.while (.bin .and (.bin .lt (.var .lineEnd) (.len (.var .content))) (.bin .ne (.index (.var .content) (.var .lineEnd)) (.char 10))) .skip
      (.set .lineEnd (.bin .add (.var .lineEnd) (.int 1)))))
    (.seq (.set .startPos (.var .pos)) <|
    .seq (.set .lineEnd (.var .startPos)) <|
    .seq (.set .i (.int 0)) <|
    (.while (.bin .lt (.var .i) (.var .count)) (.set .i (.bin .add (.var .i) (.int 1)))
      (.seq (.while (.bin .and (.bin .lt (.var .lineEnd) (.len (.var .content))) (.bin .ne (.index (.var .content) (.var .lineEnd)) (.char 10))) .skip
        (.set .lineEnd (.bin .add (.var .lineEnd) (.int 1)))) <|
      (.if_ (.bin .and (.bin .lt (.var .lineEnd) (.len (.var .content))) (.bin .eq (.index (.var .content) (.var .lineEnd)) (.char 10)))
        (.set .lineEnd (.bin .add (.var .lineEnd) (.int 1)))
        .skip))))) <|
  .seq (.set .newContent (.bin .add (.sliceTo (.var .content) (.var .startPos)) (.sliceFrom (.var .content) (.var .lineEnd)))) <|
  .seq .reset <|
  .seq (.write (.var .newContent)) <|
  (.ret (.call1 .newString (.str (b! ""))) .nil))

/-- /repo/edlisp/builtin_kill_word.go:12-46 `BuiltinKillWord` -/
def goKillWord : GoS :=
  (.seq (.set .count (.int 1)) <|
  .seq (.if_ (.bin .gt (.len (.var .args)) (.int 1))
    (.ret .nil (.errorf1 (b! "kill-word expects at most 1 argument, got ") (.len (.var .args))))
    .skip) <|
  .seq (.if_ (.bin .eq (.len (.var .args)) (.int 1))
    (.seq (.if_ (.not (.call1 .isNumber (.index (.var .args) (.int 0))))
      (.ret .nil (.errorf (b! "kill-word expects a number argument")))
      .skip) <|
    (.set .count (.call1 .int (.value (.assert .isNumber (.index (.var .args) (.int 0)))))))
    .skip) <|
  .seq (.set .content (.buf .content)) <|
  .seq (.set .startPos (.bin .sub (.buf .point) (.int 1))) <|
  .seq (.set .pos (.var .startPos)) <|
  .seq (.set .i (.int 0)) <|
  .seq (.while (.bin .and (.bin .lt (.var .i) (.var .count)) (.bin .lt (.var .pos) (.len (.var .content)))) (.set .i (.bin .add (.var .i) (.int 1)))
    (.seq (.while (.bin .and (.bin .lt (.var .pos) (.len (.var .content))) (.not (.call1 .isLetter (.index (.var .content) (.var .pos))))) .skip
      (.set .pos (.bin .add (.var .pos) (.int 1)))) <|
    (.while (.bin .and (.bin .lt (.var .pos) (.len (.var .content))) (.call1 .isLetter (.index (.var .content) (.var .pos)))) .skip
      (.set .pos (.bin .add (.var .pos) (.int 1)))))) <|
  .seq (.set .newContent (.bin .add (.sliceTo (.var .content) (.var .startPos)) (.sliceFrom (.var .content) (.var .pos)))) <|
  .seq .reset <|
  .seq (.write (.var .newContent)) <|
  (.ret (.call1 .newString (.str (b! ""))) .nil))

/-- /repo/edlisp/builtin_backward_kill_word.go:12-55 `BuiltinBackwardKillWord` -/
def goBackwardKillWord : GoS :=
  (.seq (.set .count (.int 1)) <|
  .seq (.if_ (.bin .gt (.len (.var .args)) (.int 1))
    (.ret .nil (.errorf1 (b! "backward-kill-word expects at most 1 argument, got ") (.len (.var .args))))
    .skip) <|
  .seq (.if_ (.bin .eq (.len (.var .args)) (.int 1))
    (.seq (.if_ (.not (.call1 .isNumber (.index (.var .args) (.int 0))))
      (.ret .nil (.errorf (b! "backward-kill-word expects a number argument")))
      .skip) <|
    (.set .count (.call1 .int (.value (.assert .isNumber (.index (.var .args) (.int 0)))))))
    .skip) <|
  .seq (.set .content (.buf .content)) <|
  .seq (.set .startPos (.bin .sub (.buf .point) (.int 1))) <|
  .seq (.set .pos (.var .startPos)) <|
  .seq (.set .i (.int 0)) <|
  .seq (.while (.bin .and (.bin .lt (.var .i) (.var .count)) (.bin .gt (.var .pos) (.int 0))) (.set .i (.bin .add (.var .i) (.int 1)))
    (.seq (.while (.bin .and (.bin .gt (.var .pos) (.int 0)) (.not (.call1 .isLetter (.index (.var .content) (.bin .sub (.var .pos) (.int 1)))))) .skip
      (.set .pos (.bin .sub (.var .pos) (.int 1)))) <|
    (.while (.bin .and (.bin .gt (.var .pos) (.int 0)) (.call1 .isLetter (.index (.var .content) (.bin .sub (.var .pos) (.int 1))))) .skip
      (.set .pos (.bin .sub (.var .pos) (.int 1)))))) <|
  .seq (.set .endIndex (.bin .add (.var .startPos) (.int 1))) <|
  .seq (.if_ (.bin .gt (.var .endIndex) (.len (.var .content)))
    (.set .endIndex (.len (.var .content)))
    .skip) <|
  .seq (.set .newContent (.bin .add (.sliceTo (.var .content) (.var .pos)) (.sliceFrom (.var .content) (.var .endIndex)))) <|
  .seq .reset <|
  .seq (.write (.var .newContent)) <|
  .seq (.setBuf .point (.bin .add (.var .pos) (.int 1))) <|
  (.ret (.call1 .newString (.str (b! ""))) .nil))

/-- /repo/edlisp/builtin_re_search_backward.go:13-56 `BuiltinReSearchBackward` -/
def goReSearchBackward : GoS :=
  (.seq (.if_ (.bin .ne (.len (.var .args)) (.int 1))
    (.ret .nil (.errorf1 (b! "re-search-backward expects 1 argument, got ") (.len (.var .args))))
    .skip) <|
  .seq (.if_ (.not (.call1 .isString (.index (.var .args) (.int 0))))
    (.ret .nil (.errorf (b! "re-search-backward expects a string argument")))
    .skip) <|
  .seq (.set .str (.assert .isString (.index (.var .args) (.int 0)))) <|
  .seq (.set .content (.buf .content)) <|
  .seq (.set .endPos (.bin .sub (.buf .point) (.int 1))) <|
  .seq (.if_ (.bin .gt (.var .endPos) (.len (.var .content)))
    (.set .endPos (.len (.var .content)))
    .skip) <|
  .seq (.if_ (.bin .lt (.var .endPos) (.int 0))
    (.ret .nil (.errorf (b! "search failed")))
    .skip) <|
  .seq (.setPair .re .err (.call1 .regexpCompile (.value (.var .str)))) <|
  .seq (.if_ (.bin .ne (.var .err) .nil)
    (.ret .nil (.errorf1 (b! "invalid regexp: ") (.var .err)))
    .skip) <|
  .seq (.set .searchArea (.sliceTo (.var .content) (.var .endPos))) <|
  .seq (.set .matches (.call2 .findAllStringIndex (.var .re) (.var .searchArea))) <|
  .seq (.if_ (.bin .eq (.len (.var .matches)) (.int 0))
    (.ret .nil (.errorf (b! "search failed")))
    .skip) <|
  .seq (.set .«match» (.index (.var .matches) (.bin .sub (.len (.var .matches)) (.int 1)))) <|
  .seq (.set .matchStart (.bin .add (.index (.var .«match») (.int 0)) (.int 1))) <|
  .seq (.set .matchEnd (.bin .add (.index (.var .«match») (.int 1)) (.int 1))) <|
  .seq (.setBuf .point (.var .matchEnd)) <|
  .seq (.setBuf .lastMatch (.slice (.var .content) (.index (.var .«match») (.int 0)) (.index (.var .«match») (.int 1)))) <|
  .seq (.setBuf .lastStart (.var .matchStart)) <|
  .seq (.setBuf .lastEnd (.var .matchEnd)) <|
  (.ret (.call1 .newString (.str (b! ""))) .nil))

/-- /repo/edlisp/builtin_replace_regexp_in_string.go:14-34 `BuiltinReplaceRegexpInString` -/
def goReplaceRegexpInString : GoS :=
  (.seq (.if_ (.bin .ne (.len (.var .args)) (.int 3))
    (.ret .nil (.errorf1 (b! "replace-regexp-in-string expects 3 arguments, got ") (.len (.var .args))))
    .skip) <|
  .seq (.if_ (.bin .or (.bin .or (.not (.call1 .isString (.index (.var .args) (.int 0)))) (.not (.call1 .isString (.index (.var .args) (.int 1))))) (.not (.call1 .isString (.index (.var .args) (.int 2)))))
    (.ret .nil (.errorf (b! "replace-regexp-in-string expects string arguments")))
    .skip) <|
  .seq (.set .pattern (.assert .isString (.index (.var .args) (.int 0)))) <|
  .seq (.set .replacement (.assert .isString (.index (.var .args) (.int 1)))) <|
  .seq (.set .str (.assert .isString (.index (.var .args) (.int 2)))) <|
  .seq (.setPair .re .err (.call1 .regexpCompile (.value (.var .pattern)))) <|
  .seq (.if_ (.bin .ne (.var .err) .nil)
    (.ret .nil (.errorf1 (b! "invalid regexp: ") (.var .err)))
    .skip) <|
  .seq (.set .result (.call3 .replaceAllString (.var .re) (.value (.var .str)) (.value (.var .replacement)))) <|
  (.ret (.call1 .newString (.var .result)) .nil))

/-- /repo/edlisp/eval.go:72-86 `Buffer.Insert` -/
def goInsertMethod : GoS :=
  (.seq (.set .content (.buf .content)) <|
  .seq (.if_ (.bin .le (.buf .point) (.int 1))
    (.seq .reset <|
    .seq (.write (.var .text)) <|
    (.write (.var .content)))
    (.if_ (.bin .gt (.buf .point) (.bin .add (.len (.var .content)) (.int 1)))
      (.write (.var .text))
      (.seq (.set .newContent (.bin .add (.bin .add (.sliceTo (.var .content) (.bin .sub (.buf .point) (.int 1))) (.var .text)) (.sliceFrom (.var .content) (.bin .sub (.buf .point) (.int 1))))) <|
      .seq .reset <|
      (.write (.var .newContent))))) <|
  (.setBuf .point (.bin .add (.buf .point) (.len (.var .text)))))

/-- /repo/edlisp/helpers.go:4-6 `isLetter` -/
def goIsLetter : GoS :=
  (.ret (.bin .or (.bin .or (.bin .and (.bin .ge (.var .ch) (.char 97)) (.bin .le (.var .ch) (.char 122))) (.bin .and (.bin .ge (.var .ch) (.char 65)) (.bin .le (.var .ch) (.char 90)))) (.bin .and (.bin .ge (.var .ch) (.char 48)) (.bin .le (.var .ch) (.char 57)))) .nil)

/-- /repo/edlisp/eval.go `NewDefaultEnvironment`: the names of the functions, in source order. -/
def goTable : List (Bytes × GoS) := [
  (b! "insert", goInsert),
  (b! "goto-char", goGotoChar),
  (b! "goto-line", goGotoLine),
  (b! "search-forward", goSearchForward),
  (b! "search-backward", goSearchBackward),
  (b! "re-search-forward", goReSearchForward),
  (b! "end-of-buffer", goEndOfBuffer),
  (b! "set-mark", goSetMark),
  (b! "mark", goMark),
  (b! "point", goPoint),
  (b! "line-number-at-pos", goLineNumberAtPos),
  (b! "replace-match", goReplaceMatch),
  (b! "delete-region", goDeleteRegion),
  (b! "buffer-substring", goBufferSubstring),
  (b! "mark-word", goMarkWord),
  (b! "replace-region", goReplaceRegion),
  (b! "region-beginning", goRegionBeginning),
  (b! "region-end", goRegionEnd),
  (b! "forward-char", goForwardChar),
  (b! "length", goLength),
  (b! "substring", goSubstring),
  (b! "string-match", goStringMatch),
  (b! "backward-char", goBackwardChar),
  (b! "beginning-of-buffer", goBeginningOfBuffer),
  (b! "beginning-of-line", goBeginningOfLine),
  (b! "end-of-line", goEndOfLine),
  (b! "buffer-size", goBufferSize),
  (b! "point-max", goPointMax),
  (b! "point-min", goPointMin),
  (b! "current-column", goCurrentColumn),
  (b! "upcase", goUpcase),
  (b! "downcase", goDowncase),
  (b! "capitalize", goCapitalize),
  (b! "concat", goConcat),
  (b! "set-mark-command", goSetMarkCommand),
  (b! "exchange-point-and-mark", goExchangePointAndMark),
  (b! "mark-whole-buffer", goMarkWholeBuffer),
  (b! "delete-char", goDeleteChar),
  (b! "delete-backward-char", goDeleteBackwardChar),
  (b! "forward-word", goForwardWord),
  (b! "backward-word", goBackwardWord),
  (b! "looking-at", goLookingAt),
  (b! "looking-back", goLookingBack),
  (b! "mark-line", goMarkLine),
  (b! "delete-line", goDeleteLine),
  (b! "kill-line", goKillLine),
  (b! "kill-word", goKillWord),
  (b! "backward-kill-word", goBackwardKillWord),
  (b! "re-search-backward", goReSearchBackward),
  (b! "replace-regexp-in-string", goReplaceRegexpInString)]

end Texted
