import Verif.Spec.Text
import Verif.Lemmas.F64
/- `call "<name>"` is the registered built-in, for each of the 50 names. -/
namespace Texted
variable [Ext]

theorem call_insert (args : List Value) (b : Buffer) : call b! "insert" args b = builtinInsert args b := rfl
theorem call_goto_char (args : List Value) (b : Buffer) : call b! "goto-char" args b = builtinGotoChar args b := rfl
theorem call_goto_line (args : List Value) (b : Buffer) : call b! "goto-line" args b = builtinGotoLine args b := rfl
theorem call_search_forward (args : List Value) (b : Buffer) : call b! "search-forward" args b = builtinSearchForward args b := rfl
theorem call_search_backward (args : List Value) (b : Buffer) : call b! "search-backward" args b = builtinSearchBackward args b := rfl
theorem call_re_search_forward (args : List Value) (b : Buffer) : call b! "re-search-forward" args b = builtinReSearchForward args b := rfl
theorem call_end_of_buffer (args : List Value) (b : Buffer) : call b! "end-of-buffer" args b = builtinEndOfBuffer args b := rfl
theorem call_set_mark (args : List Value) (b : Buffer) : call b! "set-mark" args b = builtinSetMark args b := rfl
theorem call_mark (args : List Value) (b : Buffer) : call b! "mark" args b = builtinMark args b := rfl
theorem call_point (args : List Value) (b : Buffer) : call b! "point" args b = builtinPoint args b := rfl
theorem call_line_number_at_pos (args : List Value) (b : Buffer) : call b! "line-number-at-pos" args b = builtinLineNumberAtPos args b := rfl
theorem call_replace_match (args : List Value) (b : Buffer) : call b! "replace-match" args b = builtinReplaceMatch args b := rfl
theorem call_delete_region (args : List Value) (b : Buffer) : call b! "delete-region" args b = builtinDeleteRegion args b := rfl
theorem call_buffer_substring (args : List Value) (b : Buffer) : call b! "buffer-substring" args b = builtinBufferSubstring args b := rfl
theorem call_mark_word (args : List Value) (b : Buffer) : call b! "mark-word" args b = builtinMarkWord args b := rfl
theorem call_replace_region (args : List Value) (b : Buffer) : call b! "replace-region" args b = builtinReplaceRegion args b := rfl
theorem call_region_beginning (args : List Value) (b : Buffer) : call b! "region-beginning" args b = builtinRegionBeginning args b := rfl
theorem call_region_end (args : List Value) (b : Buffer) : call b! "region-end" args b = builtinRegionEnd args b := rfl
theorem call_forward_char (args : List Value) (b : Buffer) : call b! "forward-char" args b = builtinForwardChar args b := rfl
theorem call_length (args : List Value) (b : Buffer) : call b! "length" args b = builtinLength args b := rfl
theorem call_substring (args : List Value) (b : Buffer) : call b! "substring" args b = builtinSubstring args b := rfl
theorem call_string_match (args : List Value) (b : Buffer) : call b! "string-match" args b = builtinStringMatch args b := rfl
theorem call_backward_char (args : List Value) (b : Buffer) : call b! "backward-char" args b = builtinBackwardChar args b := rfl
theorem call_beginning_of_buffer (args : List Value) (b : Buffer) : call b! "beginning-of-buffer" args b = builtinBeginningOfBuffer args b := rfl
theorem call_beginning_of_line (args : List Value) (b : Buffer) : call b! "beginning-of-line" args b = builtinBeginningOfLine args b := rfl
theorem call_end_of_line (args : List Value) (b : Buffer) : call b! "end-of-line" args b = builtinEndOfLine args b := rfl
theorem call_buffer_size (args : List Value) (b : Buffer) : call b! "buffer-size" args b = builtinBufferSize args b := rfl
theorem call_point_max (args : List Value) (b : Buffer) : call b! "point-max" args b = builtinPointMax args b := rfl
theorem call_point_min (args : List Value) (b : Buffer) : call b! "point-min" args b = builtinPointMin args b := rfl
theorem call_current_column (args : List Value) (b : Buffer) : call b! "current-column" args b = builtinCurrentColumn args b := rfl
theorem call_upcase (args : List Value) (b : Buffer) : call b! "upcase" args b = builtinUpcase args b := rfl
theorem call_downcase (args : List Value) (b : Buffer) : call b! "downcase" args b = builtinDowncase args b := rfl
theorem call_capitalize (args : List Value) (b : Buffer) : call b! "capitalize" args b = builtinCapitalize args b := rfl
theorem call_concat (args : List Value) (b : Buffer) : call b! "concat" args b = builtinConcat args b := rfl
theorem call_set_mark_command (args : List Value) (b : Buffer) : call b! "set-mark-command" args b = builtinSetMarkCommand args b := rfl
theorem call_exchange_point_and_mark (args : List Value) (b : Buffer) : call b! "exchange-point-and-mark" args b = builtinExchangePointAndMark args b := rfl
theorem call_mark_whole_buffer (args : List Value) (b : Buffer) : call b! "mark-whole-buffer" args b = builtinMarkWholeBuffer args b := rfl
theorem call_delete_char (args : List Value) (b : Buffer) : call b! "delete-char" args b = builtinDeleteChar args b := rfl
theorem call_delete_backward_char (args : List Value) (b : Buffer) : call b! "delete-backward-char" args b = builtinDeleteBackwardChar args b := rfl
theorem call_forward_word (args : List Value) (b : Buffer) : call b! "forward-word" args b = builtinForwardWord args b := rfl
theorem call_backward_word (args : List Value) (b : Buffer) : call b! "backward-word" args b = builtinBackwardWord args b := rfl
theorem call_looking_at (args : List Value) (b : Buffer) : call b! "looking-at" args b = builtinLookingAt args b := rfl
theorem call_looking_back (args : List Value) (b : Buffer) : call b! "looking-back" args b = builtinLookingBack args b := rfl
theorem call_mark_line (args : List Value) (b : Buffer) : call b! "mark-line" args b = builtinMarkLine args b := rfl
theorem call_delete_line (args : List Value) (b : Buffer) : call b! "delete-line" args b = builtinDeleteLine args b := rfl
theorem call_kill_line (args : List Value) (b : Buffer) : call b! "kill-line" args b = builtinKillLine args b := rfl
theorem call_kill_word (args : List Value) (b : Buffer) : call b! "kill-word" args b = builtinKillWord args b := rfl
theorem call_backward_kill_word (args : List Value) (b : Buffer) : call b! "backward-kill-word" args b = builtinBackwardKillWord args b := rfl
theorem call_re_search_backward (args : List Value) (b : Buffer) : call b! "re-search-backward" args b = builtinReSearchBackward args b := rfl
theorem call_replace_regexp_in_string (args : List Value) (b : Buffer) : call b! "replace-regexp-in-string" args b = builtinReplaceRegexpInString args b := rfl

theorem withCount_of {name args n} (h : CountArg args n) (b : Buffer) (k : Int → Res Bytes Value × Buffer) :
    withCount name args b k = k n := by
  rcases h with ⟨rfl, rfl⟩ | ⟨x, rfl, rfl⟩ <;> rfl

/-- Any number up to 2^53 in magnitude is a possible count. -/
theorem countArg_numV (n : Int) (h : n.natAbs ≤ 9007199254740992) : CountArg [numV n] n :=
  .inr ⟨F64.ofInt n, rfl, F64.toInt_ofInt n h⟩

omit [Ext] in
theorem wrap64_eq {x : Int} (h1 : minInt ≤ x) (h2 : x ≤ maxInt) : wrap64 x = x := by
  simp only [wrap64] at *; omega

omit [Ext] in
theorem wrap64_range (x : Int) : minInt ≤ wrap64 x ∧ wrap64 x ≤ maxInt := by
  simp only [wrap64]; omega

theorem F64.toInt_range (x : F64) : minInt ≤ x.toInt ∧ x.toInt ≤ maxInt := by
  unfold F64.toInt
  split
  · simp only []
    split <;> split <;> first | assumption | exact wrap64_range _
  · exact wrap64_range _

theorem CountArg.range {args : List Value} {n : Int} (h : CountArg args n) : minInt ≤ n ∧ n ≤ maxInt := by
  rcases h with ⟨_, rfl⟩ | ⟨x, _, rfl⟩
  · omega
  · exact F64.toInt_range x

end Texted
