import Verif.Model.Docs
/- Generated by tools/doctable.py from the `init` functions of /repo/edlisp/builtin_*.go. -/
namespace Texted

/-- What the 50 `init` functions register (/repo/edlisp/builtin_*.go, the lines given beside each entry), without the prose: the
summary, the description, the text about each parameter and the examples are left out. -/
def docTable : List DocEntry := [
  -- /repo/edlisp/builtin_backward_char.go:35-63
  ⟨b! "backward-char", b! "movement", [⟨b! "count", b! "number", true⟩],
    [b! "forward-char", b! "backward-word", b! "goto-char"]⟩,
  -- /repo/edlisp/builtin_backward_kill_word.go:58-86
  ⟨b! "backward-kill-word", b! "editing", [⟨b! "count", b! "number", true⟩],
    [b! "kill-word", b! "backward-word", b! "delete-region", b! "kill-line"]⟩,
  -- /repo/edlisp/builtin_backward_word.go:45-73
  ⟨b! "backward-word", b! "movement", [⟨b! "count", b! "number", true⟩],
    [b! "forward-word", b! "backward-char", b! "backward-kill-word", b! "mark-word"]⟩,
  -- /repo/edlisp/builtin_beginning_of_buffer.go:19-40
  ⟨b! "beginning-of-buffer", b! "movement", [],
    [b! "end-of-buffer", b! "beginning-of-line", b! "goto-char"]⟩,
  -- /repo/edlisp/builtin_beginning_of_line.go:36-57
  ⟨b! "beginning-of-line", b! "movement", [],
    [b! "end-of-line", b! "beginning-of-buffer", b! "goto-line"]⟩,
  -- /repo/edlisp/builtin_buffer_size.go:38-49
  ⟨b! "buffer-size", b! "buffer", [],
    [b! "point-max", b! "point-min", b! "point"]⟩,
  -- /repo/edlisp/builtin_buffer_substring.go:77-92
  ⟨b! "buffer-substring", b! "buffer", [⟨b! "start", b! "number", false⟩, ⟨b! "end", b! "number", false⟩],
    [b! "buffer-size", b! "substring", b! "region-beginning", b! "region-end"]⟩,
  -- /repo/edlisp/builtin_capitalize.go:51-64
  ⟨b! "capitalize", b! "string", [⟨b! "string", b! "string", false⟩],
    [b! "upcase", b! "downcase"]⟩,
  -- /repo/edlisp/builtin_concat.go:47-60
  ⟨b! "concat", b! "string", [⟨b! "strings", b! "string", false⟩],
    [b! "substring", b! "length"]⟩,
  -- /repo/edlisp/builtin_current_column.go:64-76
  ⟨b! "current-column", b! "position", [],
    [b! "line-number-at-pos", b! "point", b! "beginning-of-line", b! "end-of-line"]⟩,
  -- /repo/edlisp/builtin_delete_backward_char.go:49-77
  ⟨b! "delete-backward-char", b! "editing", [⟨b! "count", b! "number", true⟩],
    [b! "delete-char", b! "backward-char", b! "delete-region", b! "kill-line"]⟩,
  -- /repo/edlisp/builtin_delete_char.go:47-75
  ⟨b! "delete-char", b! "editing", [⟨b! "count", b! "number", true⟩],
    [b! "delete-backward-char", b! "delete-region", b! "kill-line", b! "insert"]⟩,
  -- /repo/edlisp/builtin_delete_line.go:55-83
  ⟨b! "delete-line", b! "editing", [⟨b! "count", b! "number", true⟩],
    [b! "kill-line", b! "delete-region", b! "beginning-of-line", b! "end-of-line"]⟩,
  -- /repo/edlisp/builtin_delete_region.go:48-63
  ⟨b! "delete-region", b! "editing", [],
    [b! "set-mark", b! "mark", b! "point", b! "replace-region", b! "kill-line"]⟩,
  -- /repo/edlisp/builtin_downcase.go:45-58
  ⟨b! "downcase", b! "string", [⟨b! "string", b! "string", false⟩],
    [b! "upcase", b! "capitalize"]⟩,
  -- /repo/edlisp/builtin_end_of_buffer.go:20-41
  ⟨b! "end-of-buffer", b! "movement", [],
    [b! "beginning-of-buffer", b! "end-of-line", b! "goto-char"]⟩,
  -- /repo/edlisp/builtin_end_of_line.go:38-59
  ⟨b! "end-of-line", b! "movement", [],
    [b! "beginning-of-line", b! "end-of-buffer", b! "goto-line"]⟩,
  -- /repo/edlisp/builtin_exchange_point_and_mark.go:27-42
  ⟨b! "exchange-point-and-mark", b! "region", [],
    [b! "set-mark", b! "mark", b! "point", b! "region-beginning", b! "region-end"]⟩,
  -- /repo/edlisp/builtin_forward_char.go:38-66
  ⟨b! "forward-char", b! "movement", [⟨b! "count", b! "number", true⟩],
    [b! "backward-char", b! "forward-word", b! "goto-char"]⟩,
  -- /repo/edlisp/builtin_forward_word.go:45-73
  ⟨b! "forward-word", b! "movement", [⟨b! "count", b! "number", true⟩],
    [b! "backward-word", b! "forward-char", b! "kill-word", b! "mark-word"]⟩,
  -- /repo/edlisp/builtin_goto_char.go:36-76
  ⟨b! "goto-char", b! "movement", [⟨b! "position", b! "number", false⟩],
    [b! "point", b! "goto-line", b! "beginning-of-buffer", b! "end-of-buffer", b! "current-column"]⟩,
  -- /repo/edlisp/builtin_goto_line.go:44-78
  ⟨b! "goto-line", b! "movement", [⟨b! "line-number", b! "number", false⟩],
    [b! "goto-char", b! "beginning-of-line", b! "end-of-line", b! "line-number-at-pos"]⟩,
  -- /repo/edlisp/builtin_insert.go:24-52
  ⟨b! "insert", b! "editing", [⟨b! "text", b! "string", false⟩],
    [b! "delete-char", b! "replace-region", b! "kill-line"]⟩,
  -- /repo/edlisp/builtin_kill_line.go:66-94
  ⟨b! "kill-line", b! "editing", [⟨b! "count", b! "number", true⟩],
    [b! "delete-line", b! "delete-region", b! "end-of-line", b! "kill-word"]⟩,
  -- /repo/edlisp/builtin_kill_word.go:49-77
  ⟨b! "kill-word", b! "editing", [⟨b! "count", b! "number", true⟩],
    [b! "backward-kill-word", b! "forward-word", b! "delete-region", b! "kill-line"]⟩,
  -- /repo/edlisp/builtin_length.go:43-56
  ⟨b! "length", b! "string", [⟨b! "string", b! "string", false⟩],
    [b! "substring", b! "concat"]⟩,
  -- /repo/edlisp/builtin_line_number_at_pos.go:69-81
  ⟨b! "line-number-at-pos", b! "position", [],
    [b! "current-column", b! "point", b! "goto-line", b! "beginning-of-line", b! "end-of-line"]⟩,
  -- /repo/edlisp/builtin_looking_at.go:52-86
  ⟨b! "looking-at", b! "search", [⟨b! "pattern", b! "string", false⟩],
    [b! "looking-back", b! "re-search-forward", b! "string-match"]⟩,
  -- /repo/edlisp/builtin_looking_back.go:55-89
  ⟨b! "looking-back", b! "search", [⟨b! "pattern", b! "string", false⟩],
    [b! "looking-at", b! "re-search-backward", b! "string-match"]⟩,
  -- /repo/edlisp/builtin_mark.go:47-58
  ⟨b! "mark", b! "position", [],
    [b! "point", b! "set-mark", b! "set-mark-command", b! "region-beginning", b! "region-end", b! "exchange-point-and-mark"]⟩,
  -- /repo/edlisp/builtin_mark_line.go:53-81
  ⟨b! "mark-line", b! "mark", [⟨b! "count", b! "number", true⟩],
    [b! "mark-word", b! "mark-whole-buffer", b! "beginning-of-line", b! "end-of-line"]⟩,
  -- /repo/edlisp/builtin_mark_whole_buffer.go:25-40
  ⟨b! "mark-whole-buffer", b! "mark", [],
    [b! "mark-line", b! "mark-word", b! "beginning-of-buffer", b! "end-of-buffer"]⟩,
  -- /repo/edlisp/builtin_mark_word.go:44-59
  ⟨b! "mark-word", b! "mark", [],
    [b! "mark-line", b! "mark-whole-buffer", b! "forward-word", b! "backward-word"]⟩,
  -- /repo/edlisp/builtin_point.go:45-57
  ⟨b! "point", b! "position", [],
    [b! "mark", b! "goto-char", b! "point-min", b! "point-max"]⟩,
  -- /repo/edlisp/builtin_point_max.go:47-59
  ⟨b! "point-max", b! "position", [],
    [b! "point-min", b! "buffer-size", b! "point", b! "end-of-buffer"]⟩,
  -- /repo/edlisp/builtin_point_min.go:48-60
  ⟨b! "point-min", b! "position", [],
    [b! "point-max", b! "buffer-size", b! "point", b! "beginning-of-buffer"]⟩,
  -- /repo/edlisp/builtin_re_search_backward.go:59-87
  ⟨b! "re-search-backward", b! "search", [⟨b! "regexp", b! "string", false⟩],
    [b! "re-search-forward", b! "search-backward", b! "replace-match", b! "looking-back"]⟩,
  -- /repo/edlisp/builtin_re_search_forward.go:55-83
  ⟨b! "re-search-forward", b! "search", [⟨b! "regexp", b! "string", false⟩],
    [b! "re-search-backward", b! "search-forward", b! "replace-match", b! "looking-at"]⟩,
  -- /repo/edlisp/builtin_region_beginning.go:27-48
  ⟨b! "region-beginning", b! "region", [],
    [b! "region-end", b! "mark", b! "point", b! "buffer-substring"]⟩,
  -- /repo/edlisp/builtin_region_end.go:27-48
  ⟨b! "region-end", b! "region", [],
    [b! "region-beginning", b! "mark", b! "point", b! "buffer-substring"]⟩,
  -- /repo/edlisp/builtin_replace_match.go:48-76
  ⟨b! "replace-match", b! "search", [⟨b! "replacement", b! "string", false⟩],
    [b! "search-forward", b! "search-backward", b! "re-search-forward", b! "re-search-backward", b! "replace-regexp-in-string"]⟩,
  -- /repo/edlisp/builtin_replace_regexp_in_string.go:37-83
  ⟨b! "replace-regexp-in-string", b! "string", [⟨b! "regexp", b! "string", false⟩, ⟨b! "replacement", b! "string", false⟩, ⟨b! "string", b! "string", false⟩],
    [b! "string-match", b! "replace-match", b! "re-search-forward", b! "re-search-backward"]⟩,
  -- /repo/edlisp/builtin_replace_region.go:53-81
  ⟨b! "replace-region", b! "editing", [⟨b! "replacement", b! "string", false⟩],
    [b! "set-mark", b! "mark-word", b! "mark-line", b! "delete-region", b! "insert"]⟩,
  -- /repo/edlisp/builtin_search_backward.go:50-78
  ⟨b! "search-backward", b! "search", [⟨b! "pattern", b! "string", false⟩],
    [b! "search-forward", b! "re-search-backward", b! "replace-match"]⟩,
  -- /repo/edlisp/builtin_search_forward.go:49-77
  ⟨b! "search-forward", b! "search", [⟨b! "pattern", b! "string", false⟩],
    [b! "search-backward", b! "re-search-forward", b! "replace-match"]⟩,
  -- /repo/edlisp/builtin_set_mark.go:21-36
  ⟨b! "set-mark", b! "mark", [],
    [b! "set-mark-command", b! "mark", b! "region-beginning", b! "region-end"]⟩,
  -- /repo/edlisp/builtin_set_mark_command.go:32-60
  ⟨b! "set-mark-command", b! "mark", [⟨b! "position", b! "number", true⟩],
    [b! "set-mark", b! "mark", b! "goto-char", b! "region-beginning", b! "region-end"]⟩,
  -- /repo/edlisp/builtin_string_match.go:49-89
  ⟨b! "string-match", b! "string", [⟨b! "pattern", b! "string", false⟩, ⟨b! "string", b! "string", false⟩],
    [b! "looking-at", b! "re-search-forward", b! "replace-regexp-in-string"]⟩,
  -- /repo/edlisp/builtin_substring.go:91-106
  ⟨b! "substring", b! "string", [⟨b! "string", b! "string", false⟩, ⟨b! "start", b! "number", false⟩, ⟨b! "end", b! "number", true⟩],
    [b! "length", b! "concat"]⟩,
  -- /repo/edlisp/builtin_upcase.go:45-58
  ⟨b! "upcase", b! "string", [⟨b! "string", b! "string", false⟩],
    [b! "downcase", b! "capitalize"]⟩]

end Texted
